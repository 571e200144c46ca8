import Verif.Lemmas.Safari
/-
The whole picture drawn with the style safari.
-/
namespace Bglib
open Spec Img

variable {rules : List Rule} {k : Ink} {anc : List Elem}

theorem image_draws {e : Elem} {x y w h : Int} {f : Bool} {name : Text} {g : List Elem → Bool} {kids : List Tree}
    {b : List Op} (hl : innerLooks rules e (imageIs x y w h f name) g anc = true) (hn : isCard e.name = true)
    (hk : ∀ x, g x = true → KidsDraw rules k x kids b) :
    Draws rules k anc (.node e kids) (k.image x y w h f (safari name) :: b) :=
  inner_draws (a := [k.image x y w h f (safari name)]) hl
    (fun _ h1 h => draw_card h (safari_ne _) (h1 ▸ hn) k) hk

theorem blank_draws {e : Elem} {g : List Elem → Bool} {kids : List Tree}
    {b : List Op} (hl : innerLooks rules e blankIs g anc = true)
    (hk : ∀ x, g x = true → KidsDraw rules k x kids b) : Draws rules k anc (.node e kids) b :=
  inner_draws (a := []) hl (fun _ _ h => draw_blank h k) hk

theorem action_who (b : Board) (hs : Sensible b) : (actionWords b).1 = YOU ∨ (actionWords b).1 = HIM := by
  have h1 : b.onAction = YOU ∨ b.onAction = HIM := hs.turns.1
  have h2 : other b.onAction = YOU ∨ other b.onAction = HIM := by
    rcases h1 with h | h <;> rw [h] <;> simp [other, YOU, HIM]
  unfold actionWords
  repeat' split
  all_goals first | exact h1 | exact h2 | exact .inl rfl

theorem full_length (b : Board) : (fullTree b).length = .node ⟨.length, [], [pyStr b.matchLength]⟩ [] := by
  unfold fullTree withField cubeTree; repeat' split
  all_goals rfl

theorem full_crawford (b : Board) : (fullTree b).crawford = (baseTree b).crawford := by
  unfold fullTree withField cubeTree; repeat' split
  all_goals rfl

theorem full_score (b : Board) : (fullTree b).score = (.node ⟨.score, playerAttr YOU, [pyStr b.score.1]⟩ [],
    .node ⟨.score, playerAttr HIM, [pyStr b.score.2]⟩ []) := by
  unfold fullTree withField cubeTree; repeat' split
  all_goals rfl

theorem full_action (b : Board) :
    (fullTree b).action = .node ⟨.action, playerAttr (actionWords b).1, [(actionWords b).2]⟩ [] := rfl

/-- The sheet with the numbers. -/
theorem safari_match_draws {a : List Elem} (h : safariMatchLooks rules a = true) (b : Board) (hs : Sensible b) :
    KidsDraw rules k a [(fullTree b).action, (fullTree b).length, (fullTree b).crawford, (fullTree b).score.1,
      (fullTree b).score.2]
      ([k.rect 0 103 25 26 t!"white",
        k.image 0 103 25 26 false (safari (if (actionWords b).1 = 0 then t!"action_white" else t!"action_green"))] ++
       (k.card 316 93 25 46 false t!"score_" 0 25 b.matchLength ++
       ([k.image 291 93 25 46 false (safari (if b.crawford then t!"crawford" else t!"score_template"))] ++
       (k.card 291 139 50 93 false t!"score_" 0 25 b.score.1 ++
        k.card 291 0 50 93 false t!"score_" 0 25 b.score.2)))) := by
  unfold safariMatchLooks at h
  simp only [Bool.and_eq_true] at h
  obtain ⟨⟨⟨⟨⟨m1, m2⟩, m3⟩, m4⟩, m5⟩, m6⟩ := h
  rw [full_length, full_crawford, full_score, full_action]
  refine kids_cons ?_ (kids_cons ?_ (kids_cons ?_ (kids_cons ?_ (kids_one ?_))))
  · have : leafLooks rules .action (playerAttr (actionWords b).1)
        (cardIs 0 103 25 26 false (safari (if (actionWords b).1 = 0 then t!"action_white" else t!"action_green")) ++
          [(t!"background", strIs t!"white")]) a = true := by
      rcases action_who b hs with h | h <;> rw [h]
      · exact m1
      · exact m2
    refine leaf_draws this fun e' h1 h2 h3 => ?_
    rw [looks_append, looks_cons] at h3
    have hb := h3.1
    unfold cardIs at hb
    rw [looks_append] at hb
    exact element_of (back_rect hb.1 h3.2.1 k) (own_card h3.1 (safari_ne _) (by rw [h1]; rfl) k)
  · exact card_draws m3 rfl _
  · refine case_draws m4 fun e' h1 h2 h3 => ?_
    cases hc : b.crawford with
    | false =>
      rw [hc] at h3
      exact draw_card h3 (safari_ne _) (by rw [h1]; rfl) k
    | true =>
      rw [hc] at h3
      exact draw_card h3 (safari_ne _) (by rw [h1]; rfl) k
  · exact card_draws m5 rfl _
  · exact card_draws m6 rfl _

theorem safari_kids_draw {a : List Elem} {p : Int} (h : safariFieldLooks rules p a = true)
    (b : Board) (hs : Sensible b) (hz : k.scale 0 = 0) (hin : p = (fieldKids b).1) :
    KidsDraw rules k a (fieldKids b).2 (k.safariField b p).tail := by
  unfold safariFieldLooks at h
  simp only [Bool.and_eq_true] at h
  obtain ⟨⟨⟨x1, x2⟩, x3⟩, x4⟩ := h
  have h01 : b.onAction = YOU ∨ b.onAction = HIM := hs.turns.1
  have hoth : b.onAction ≠ other b.onAction := by
    rcases h01 with h | h <;> rw [h] <;> simp [other, YOU, HIM]
  unfold fieldKids at hin
  unfold fieldKids Ink.safariField
  rw [List.tail_cons]
  by_cases hr : b.rolled = (0, 0)
  · rw [if_pos hr] at hin
    rw [if_pos hr, if_neg (show ¬ b.rolled ≠ (0, 0) from fun h => h hr)]
    by_cases hi : b.onInnerAction = b.onAction
    · simp only [hi, ne_eq, not_true_eq_false, decide_false, Bool.and_false, Bool.false_eq_true, if_false, true_or, if_true]
      exact kids_nil
    · cases hdb : b.doubled with
      | true =>
        simp only [hdb, hi, ne_eq, not_false_eq_true, decide_true, Bool.not_true, Bool.and_true,
          Bool.false_eq_true, if_false, if_true, false_or] at hin ⊢
        rw [if_neg (show ¬ b.onAction = p from fun h => hoth (h.trans hin))]
        exact kids_one (safari_cube_draws x3 _)
      | false =>
        simp only [hdb, hi, ne_eq, not_false_eq_true, decide_true, Bool.not_false, Bool.true_and,
          Bool.false_eq_true, if_false, if_true, false_or] at hin ⊢
        rw [if_neg (show ¬ b.onAction = p from fun h => hoth (h.trans hin))]
        exact kids_one (leaf_draws x4 fun e' h1 h2 h3 => draw_chips h3 h1 h2 k hz)
  · rw [if_neg hr] at hin
    rw [if_neg hr, if_pos hr, if_pos hin.symm]
    exact kids_cons (die_card_draws x1 _) (kids_one (die_card_draws x2 _))

theorem safari_field_empty (b : Board) (hs : Sensible b) (p : Int) (hp : p = YOU ∨ p = HIM) (hne : p ≠ (fieldKids b).1) :
    (k.safariField b p).tail = [] := by
  have h01 : b.onAction = YOU ∨ b.onAction = HIM := hs.turns.1
  have hoth : ∀ q, q = YOU ∨ q = HIM → q ≠ other b.onAction → b.onAction = q := by
    intro q hq hqo
    rcases h01 with h | h <;> rcases hq with rfl | rfl <;> simp_all [other, YOU, HIM]
  unfold fieldKids at hne
  unfold Ink.safariField
  rw [List.tail_cons]
  by_cases hr : b.rolled = (0, 0)
  · rw [if_pos hr] at hne
    rw [if_neg (show ¬ b.rolled ≠ (0, 0) from fun h => h hr)]
    by_cases hi : b.onInnerAction = b.onAction
    · rw [if_pos (.inl hi)]
    · cases hdb : b.doubled with
      | true =>
        simp only [hdb, hi, ne_eq, not_false_eq_true, decide_true, Bool.not_true, Bool.and_true,
          Bool.false_eq_true, if_false, if_true] at hne
        rw [if_pos (.inr (hoth p hp hne))]
      | false =>
        simp only [hdb, hi, ne_eq, not_false_eq_true, decide_true, Bool.not_false, Bool.true_and,
          if_true] at hne
        rw [if_pos (.inr (hoth p hp hne))]
  · rw [if_neg hr] at hne
    rw [if_pos hr, if_neg (fun h => hne h.symm)]

theorem safari_field_draws {p x : Int} (hp : p = YOU ∨ p = HIM) (hx : x = if p = 0 then 158 else 25)
    (h : innerLooks rules ⟨.field, playerAttr p, []⟩ (imageIs x 93 108 46 false t!"field") (safariFieldLooks rules p) anc = true)
    (b : Board) (hs : Sensible b) (hz : k.scale 0 = 0) :
    Draws rules k anc (.node ⟨.field, playerAttr p, []⟩ (ownKids b p)) (k.safariField b p) := by
  have hh : k.safariField b p = k.image x 93 108 46 false (safari t!"field") :: (k.safariField b p).tail := by
    rw [hx]; rfl
  rw [hh]
  refine image_draws h rfl fun x hx => ?_
  unfold ownKids
  by_cases hin : (fieldKids b).1 = p
  · rw [if_pos hin]
    exact safari_kids_draw hx b hs hz hin.symm
  · rw [if_neg hin, safari_field_empty b hs p hp fun h => hin h.symm]
    exact kids_nil

theorem safari_own_draws {a : List Elem} {o y : Int} (h : safariCubeLooks rules 266 y a = true) (b : Board)
    (ho : (if o = 0 then 197 else if o = 1 then 5 else 105) = y) :
    KidsDraw rules k a (ownCube b o) (k.safariCubeAt b o) := by
  unfold ownCube Ink.safariCubeAt
  split
  · exact kids_nil
  · rw [ho]; exact kids_one (safari_cube_draws h _)

theorem safari_point_draws {i : Nat} (h : safariPointLooks rules i anc = true) (b : Board) :
    Draws rules k anc (fullPoint b i) (k.safariPoint i (cnt b.position.1 (i - 1)) (cnt b.position.2 (24 - i))) := by
  unfold fullPoint Ink.safariPoint pointKids
  unfold safariPointLooks at h
  dsimp only
  refine image_draws h rfl fun x hx => ?_
  rw [Bool.and_eq_true] at hx
  by_cases hi : i ≤ 12
  · simp only [hi, if_true] at hx ⊢
    exact kids_append (pile_card_draws hx.1 _) (pile_card_draws hx.2 _)
  · simp only [hi, if_false] at hx ⊢
    exact kids_append (pile_card_draws hx.2 _) (pile_card_draws hx.1 _)

/-- The picture with the style safari. -/
theorem safari_picture (b : Board) (hs : Sensible b) (hw : Drawable b) (hz : k.scale 0 = 0) :
    drawBoard Safari.rules k.scale b = .ok (k.safariPicture b) := by
  have key : Draws Safari.rules k [] (fullTree b).board (k.safariPicture b) := by
    have h := inner_and safari_sheet safari_position
    unfold ETree.board
    have hpic : k.safariPicture b = k.rect 0 0 341 232 t!"red" ::
      (([k.rect 0 103 25 26 t!"white",
        k.image 0 103 25 26 false (safari (if (actionWords b).1 = 0 then t!"action_white" else t!"action_green"))] ++
       (k.card 316 93 25 46 false t!"score_" 0 25 b.matchLength ++
       ([k.image 291 93 25 46 false (safari (if b.crawford then t!"crawford" else t!"score_template"))] ++
       (k.card 291 139 50 93 false t!"score_" 0 25 b.score.1 ++
        k.card 291 0 50 93 false t!"score_" 0 25 b.score.2)))) ++
      (k.image 0 0 291 232 false (safari t!"position") ::
       (([] ++ ([] ++
        ((k.image 266 101 25 30 false (safari t!"cubeholder") :: k.safariCubeAt b 3) ++ (k.safariField b 0 ++
        ((k.image 266 131 25 101 false (safari t!"your-home") :: ([] ++ k.safariCubeAt b 0)) ++
        (k.image 133 5 25 111 false (safari t!"bar-none") ::
          k.card 133 5 25 111 false t!"bar-green-" 1 15 (cnt b.position.2 24))))))) ++
        (List.range 24).flatMap (fun i =>
          k.safariPoint (i + 1) (cnt b.position.1 i) (cnt b.position.2 (23 - i))) ++
        ((k.image 133 116 25 111 false (safari t!"bar-none") ::
          k.card 133 116 25 111 false t!"bar-white-" 1 15 (cnt b.position.1 24)) ++
        ((k.image 266 0 25 101 false (safari t!"his-home") :: ([] ++ k.safariCubeAt b 1)) ++
         k.safariField b 1))))) := by
      simp only [Ink.safariPicture, List.cons_append, List.nil_append, List.append_assoc]
    rw [hpic]
    refine plain_draws h fun a ha => ?_
    rw [Bool.and_eq_true] at ha
    refine kids_cons ?_ (kids_one ?_)
    · exact blank_draws ha.1 fun m hm => safari_match_draws hm b hs
    · refine image_draws ha.2 rfl fun q hq => ?_
      unfold safariPlacesLooks safariBarsLooks at hq
      simp only [Bool.and_eq_true] at hq
      obtain ⟨⟨⟨⟨⟨⟨⟨q1, q2⟩, q3⟩, q4⟩, q5⟩, q6⟩, q7⟩, ⟨q8, q9⟩, q10⟩ := hq
      obtain ⟨c1, c2⟩ := cubes_eq b hs.owner
      rw [full_cubeholder, full_home, full_bar, full_points, fields_eq b hs, c1, c2]
      refine kids_append (kids_append (kids_cons ?_ (kids_cons ?_ (kids_cons ?_ (kids_cons ?_ (kids_cons ?_
        (kids_one ?_)))))) ?_) (kids_cons ?_ (kids_cons ?_ (kids_one ?_)))
      · exact blank_draws q1 fun _ _ => kids_nil
      · exact blank_draws q2 fun _ _ => kids_nil
      · exact image_draws q3 rfl fun x hx => safari_own_draws hx b rfl
      · exact safari_field_draws (.inl rfl) rfl q4 b hs hz
      · refine image_draws q6 rfl fun x hx => ?_
        rw [Bool.and_eq_true] at hx
        exact kids_append (hidden_draws hx.1 _) (safari_own_draws hx.2 b rfl)
      · exact image_draws q9 rfl fun x hx => pile_card_draws hx _
      · refine kids_map _ _ _ fun i hi => ?_
        rw [List.all_eq_true] at q10
        have := safari_point_draws (k := k) (q10 i hi) b
        rwa [show i + 1 - 1 = i by omega, show 24 - (i + 1) = 23 - i by omega] at this
      · exact image_draws q8 rfl fun x hx => pile_card_draws hx _
      · refine image_draws q7 rfl fun x hx => ?_
        rw [Bool.and_eq_true] at hx
        exact kids_append (hidden_draws hx.1 _) (safari_own_draws hx.2 b rfl)
      · exact safari_field_draws (.inr rfl) rfl q5 b hs hz
  obtain ⟨t', h1, h2⟩ := key
  unfold drawBoard
  rw [(set_full b hs).1 hw]
  dsimp only
  rw [h1]
  dsimp only
  rw [show ([] : List Elem) = [].reverse from rfl, h2]
  unfold resultOf
  exact if_neg (by simp [Ink.safariPicture])

end Bglib
