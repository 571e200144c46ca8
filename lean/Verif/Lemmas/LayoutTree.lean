import Verif.Lemmas.Layout
/-
The whole picture drawn with a plain style.
-/
namespace Bglib
open Spec Img

variable {rules : List Rule} {k : Ink} {anc : List Elem} {pal : Palette}

theorem inner_draws {e : Elem} {l : List (Text × Option Value)} {f : List Elem → Bool} {kids : List Tree}
    {a b : List Op} (h : innerLooks rules e l f anc = true)
    (ha : ∀ e', e'.name = e.name → looks (e' :: anc.reverse) l = true → drawElement k.scale (e' :: anc.reverse) = .ok a)
    (hk : ∀ x, f x = true → KidsDraw rules k x kids b) : Draws rules k anc (.node e kids) (a ++ b) := by
  obtain ⟨e', h1, h2, h3, h4⟩ := inner_looks h
  exact node_draws h1 (ha e' h2 h3) (hk _ h4)

theorem leaf_draws {n : EName} {attrs : List (Text × Value)} {l : List (Text × Option Value)} {x : Text} {a : List Op}
    (h : leafLooks rules n attrs l anc = true)
    (ha : ∀ e', e'.name = n → e'.data = [x] → looks (e' :: anc.reverse) l = true →
      drawElement k.scale (e' :: anc.reverse) = .ok a) : Draws rules k anc (.node ⟨n, attrs, [x]⟩ []) a := by
  obtain ⟨e', h1, h2, h3, h4⟩ := leaf_looks h x
  have := node_draws h1 (ha e' h2 h3 h4) kids_nil
  rwa [List.append_nil] at this

theorem plain_draws {e : Elem} {x y w h : Int} {c : Text} {f : List Elem → Bool} {kids : List Tree} {b : List Op}
    (hl : innerLooks rules e (plainIs x y w h c) f anc = true) (hk : ∀ x, f x = true → KidsDraw rules k x kids b) :
    Draws rules k anc (.node e kids) (k.rect x y w h c :: b) :=
  inner_draws (a := [k.rect x y w h c]) hl (fun _ _ h => draw_plain h k) hk

theorem cube_draws {x y : Int} (h : cubeLooks rules pal x y anc = true) (hf : pal.font ≠ []) (n : Nat) :
    Draws rules k anc (cubeLeaf n) (k.cube pal x y n) :=
  leaf_draws h fun _ h1 h2 h3 => draw_cube h3 hf h1 h2 k

theorem pile_zero (x y dy max : Int) (f c : Text) (hm : 0 ≤ max) : k.pile x y dy max f c 0 = [] := by
  unfold Ink.pile
  rw [if_neg (by omega), show (min 0 max).toNat = 0 by omega]
  rfl

theorem pile_draws {p x y dy max : Int} {f c : Text} (h : chequerLooks rules p x y dy max f c anc = true)
    (hm : 0 ≤ max) (hz : k.scale 0 = 0) (n : Int) :
    KidsDraw rules k anc (addedC p n) (k.pile x y dy max f c n) := by
  unfold chequerLooks at h
  rw [Bool.and_eq_true] at h
  unfold addedC
  by_cases hn : n = 0
  · subst hn
    rw [if_pos rfl, pile_zero _ _ _ _ _ _ hm]
    exact kids_nil
  · rw [if_neg hn]
    exact kids_one (leaf_draws h.2 fun _ h1 h2 h3 => draw_chequer h3 h.1 h1 h2 hm k hz)

/-- The sheet with the texts. -/
theorem match_draws {a : List Elem} (h : matchLooks rules pal a = true) (hf : pal.font ≠ []) (b : Board) (hs : Sensible b) :
    KidsDraw rules k a [(fullTree b).action, (fullTree b).length, (fullTree b).crawford, (fullTree b).score.1,
      (fullTree b).score.2]
      ([k.rect 0 232 341 30 pal.action,
        k.text 0 232 341 30 (actionWords b).2 pal.font (ofSide (actionWords b).1 pal.actionInk)] ++
       ([k.text 316 93 25 46 (pyStr b.matchLength) pal.font pal.lengthInk] ++
       ((if b.crawford then [k.text 291 93 25 46 t!"*" pal.font pal.crawfordInk] else []) ++
       ([k.text 291 139 50 93 (pyStr b.score.1) pal.font pal.scoreInk.1] ++
        [k.text 291 0 50 93 (pyStr b.score.2) pal.font pal.scoreInk.2])))) := by
  unfold matchLooks at h
  simp only [Bool.and_eq_true] at h
  obtain ⟨⟨⟨⟨⟨m1, m2⟩, m3⟩, m4⟩, m5⟩, m6⟩ := h
  have hlen : (fullTree b).length = .node ⟨.length, [], [pyStr b.matchLength]⟩ [] := by
    unfold fullTree withField cubeTree; repeat' split
    all_goals rfl
  have hcr : (fullTree b).crawford = (baseTree b).crawford := by
    unfold fullTree withField cubeTree; repeat' split
    all_goals rfl
  have hsc : (fullTree b).score = (.node ⟨.score, playerAttr YOU, [pyStr b.score.1]⟩ [],
      .node ⟨.score, playerAttr HIM, [pyStr b.score.2]⟩ []) := by
    unfold fullTree withField cubeTree; repeat' split
    all_goals rfl
  have hact : (fullTree b).action = .node ⟨.action, playerAttr (actionWords b).1, [(actionWords b).2]⟩ [] := rfl
  have hwho : (actionWords b).1 = YOU ∨ (actionWords b).1 = HIM := by
    have h1 : b.onAction = YOU ∨ b.onAction = HIM := hs.turns.1
    have h2 : other b.onAction = YOU ∨ other b.onAction = HIM := by
      rcases h1 with h | h <;> rw [h] <;> simp [other, YOU, HIM]
    unfold actionWords
    repeat' split
    all_goals first | exact h1 | exact h2 | exact .inl rfl
  have label : ∀ {n : EName} {x y w v : Int} {c t : Text} (e' : Elem), (n = .action ∨ n = .length ∨ n = .score) →
      e'.name = n → e'.data = [t] →
      looks (e' :: a.reverse) (inkIs x y w v pal.font c ++ [(t!"background", none)]) = true →
      drawElement k.scale (e' :: a.reverse) = .ok [k.text x y w v t pal.font c] := by
    intro n x y w v c t e' hn h1 h2 h3
    rw [looks_append, looks_cons] at h3
    exact element_of (a := []) (back_none h3.2.1 k) (draw_label h3.1 hf (h1 ▸ hn) h2 k)
  rw [hlen, hcr, hsc, hact]
  refine kids_cons ?_ (kids_cons ?_ (kids_cons ?_ (kids_cons ?_ (kids_one ?_))))
  · have : leafLooks rules .action (playerAttr (actionWords b).1)
        (inkIs 0 232 341 30 pal.font (ofSide (actionWords b).1 pal.actionInk) ++ [(t!"background", strIs pal.action)]) a
        = true := by
      rcases hwho with h | h <;> rw [h]
      · exact m1
      · exact m2
    refine leaf_draws this fun e' h1 h2 h3 => ?_
    rw [looks_append, looks_cons] at h3
    have hb := h3.1
    unfold inkIs at hb
    rw [looks_append] at hb
    exact element_of (back_rect hb.1 h3.2.1 k) (draw_label h3.1 hf (.inl h1) h2 k)
  · exact leaf_draws m3 fun e' h1 h2 h3 => label e' (.inr (.inl rfl)) h1 h2 h3
  · refine leaf_draws m4 fun e' h1 h2 h3 => ?_
    rw [looks_append, looks_cons] at h3
    exact element_of (a := []) (back_none h3.2.1 k) (draw_crawford h3.1 hf h1 h2 k)
  · exact leaf_draws m5 fun e' h1 h2 h3 => label e' (.inr (.inr rfl)) h1 h2 h3
  · exact leaf_draws m6 fun e' h1 h2 h3 => label e' (.inr (.inr rfl)) h1 h2 h3

/-- What is in the field of a player. -/
def ownKids (b : Board) (p : Int) : List Tree := if (fieldKids b).1 = p then (fieldKids b).2 else []

theorem fieldKids_draw {a : List Elem} {p : Int} (h : fieldLooks rules pal p a = true) (hf : pal.font ≠ [])
    (b : Board) (hs : Sensible b) (hw : Drawable b) (hd : DiceOk b) (hin : p = (fieldKids b).1) :
    KidsDraw rules k a (fieldKids b).2 (k.field pal b p).tail := by
  unfold fieldLooks at h
  simp only [Bool.and_eq_true] at h
  obtain ⟨⟨⟨x1, x2⟩, x3⟩, x4⟩ := h
  have h01 : b.onAction = YOU ∨ b.onAction = HIM := hs.turns.1
  have hoth : b.onAction ≠ other b.onAction := by
    rcases h01 with h | h <;> rw [h] <;> simp [other, YOU, HIM]
  unfold fieldKids at hin
  unfold fieldKids Ink.field
  rw [List.tail_cons]
  by_cases hr : b.rolled = (0, 0)
  · rw [if_pos hr] at hin
    rw [if_pos hr, if_neg (show ¬ b.rolled ≠ (0, 0) from fun h => h hr)]
    by_cases hi : b.onInnerAction = b.onAction
    · simp only [hi, ne_eq, not_true_eq_false, decide_false, Bool.and_false, Bool.false_eq_true, if_false, true_or, if_true]
      exact kids_nil
    · cases hdb : b.doubled with
      | true =>
        simp only [hdb, hi, ne_eq, not_false_eq_true, decide_true, Bool.not_true, Bool.and_true,
          Bool.false_eq_true, if_false, if_true, false_or] at hin ⊢
        rw [if_neg (show ¬ b.onAction = p from fun h => hoth (h.trans hin))]
        exact kids_one (cube_draws x3 hf _)
      | false =>
        simp only [hdb, hi, ne_eq, not_false_eq_true, decide_true, Bool.not_false, Bool.true_and,
          Bool.false_eq_true, if_false, if_true, false_or] at hin ⊢
        rw [if_neg (show ¬ b.onAction = p from fun h => hoth (h.trans hin))]
        have : 1 ≤ b.resignOffer ∧ b.resignOffer ≤ 3 := by
          rcases hw with h | h | h | h
          · exact absurd hr h
          · exact absurd h hi
          · rw [hdb] at h; simp at h
          · exact h
        exact kids_one (leaf_draws x4 fun e' h1 h2 h3 => draw_resign h3 hf h1 h2 this.1 this.2 k)
  · rw [if_neg hr] at hin
    rw [if_neg hr, if_pos hr]
    have hdd : 1 ≤ b.rolled.1 ∧ b.rolled.1 ≤ 6 ∧ 1 ≤ b.rolled.2 ∧ b.rolled.2 ≤ 6 := by
      rcases hd with h | h
      · exact absurd h hr
      · exact h
    rw [if_pos hin.symm]
    exact kids_cons (leaf_draws x1 fun e' h1 h2 h3 => draw_die h3 h1 h2 hdd.1 hdd.2.1 k)
      (kids_one (leaf_draws x2 fun e' h1 h2 h3 => draw_die h3 h1 h2 hdd.2.2.1 hdd.2.2.2 k))

theorem field_empty (b : Board) (hs : Sensible b) (p : Int) (hp : p = YOU ∨ p = HIM) (hne : p ≠ (fieldKids b).1) :
    (k.field pal b p).tail = [] := by
  have h01 : b.onAction = YOU ∨ b.onAction = HIM := hs.turns.1
  have hoth : ∀ q, q = YOU ∨ q = HIM → q ≠ other b.onAction → b.onAction = q := by
    intro q hq hqo
    rcases h01 with h | h <;> rcases hq with rfl | rfl <;> simp_all [other, YOU, HIM]
  unfold fieldKids at hne
  unfold Ink.field
  rw [List.tail_cons]
  by_cases hr : b.rolled = (0, 0)
  · rw [if_pos hr] at hne
    rw [if_neg (show ¬ b.rolled ≠ (0, 0) from fun h => h hr)]
    by_cases hi : b.onInnerAction = b.onAction
    · rw [if_pos (.inl hi)]
    · cases hdb : b.doubled with
      | true =>
        simp only [hdb, hi, ne_eq, not_false_eq_true, decide_true, Bool.not_true, Bool.and_true,
          Bool.false_eq_true, if_false, if_true] at hne
        rw [if_pos (.inr (hoth p hp hne))]
      | false =>
        simp only [hdb, hi, ne_eq, not_false_eq_true, decide_true, Bool.not_false, Bool.true_and,
          if_true] at hne
        rw [if_pos (.inr (hoth p hp hne))]
  · rw [if_neg hr] at hne
    rw [if_pos hr, if_neg (fun h => hne h.symm)]

theorem field_draws {p : Int} (hp : p = YOU ∨ p = HIM) (h : innerLooks rules ⟨.field, playerAttr p, []⟩ (fieldBack pal p) (fieldLooks rules pal p) anc = true)
    (hf : pal.font ≠ []) (b : Board) (hs : Sensible b) (hw : Drawable b) (hd : DiceOk b) :
    Draws rules k anc (.node ⟨.field, playerAttr p, []⟩ (ownKids b p)) (k.field pal b p) := by
  have hh : k.field pal b p = [k.text (if p = 0 then 158 else 25) 93 108 46 t!"Backgammonbase" pal.font pal.fieldInk] ++
      (k.field pal b p).tail := rfl
  rw [hh]
  refine inner_draws h (fun e' h1 h2 => ?_) fun x hx => ?_
  · unfold fieldBack at h2
    rw [looks_append, looks_cons] at h2
    exact element_of (a := []) (back_none h2.2.1 k) (draw_field h2.1 hf (by decide) h1 k)
  · unfold ownKids
    by_cases hin : (fieldKids b).1 = p
    · rw [if_pos hin]
      exact fieldKids_draw hx hf b hs hw hd hin.symm
    · rw [if_neg hin, field_empty b hs p hp fun h => hin h.symm]
      exact kids_nil

theorem fields_eq (b : Board) (hs : Sensible b) : (fullTree b).field =
    (.node ⟨.field, playerAttr YOU, []⟩ (ownKids b YOU), .node ⟨.field, playerAttr HIM, []⟩ (ownKids b HIM)) := by
  rw [full_field]
  have h01 : b.onAction = YOU ∨ b.onAction = HIM := hs.turns.1
  have : (fieldKids b).1 = YOU ∨ (fieldKids b).1 = HIM := by
    have h2 : other b.onAction = YOU ∨ other b.onAction = HIM := by
      rcases h01 with h | h <;> rw [h] <;> simp [other, YOU, HIM]
    unfold fieldKids
    repeat' split
    all_goals first | exact h01 | exact h2 | exact .inl rfl
  unfold ownKids
  rcases this with h | h <;> rw [h]
  · rw [if_pos rfl, if_pos rfl, if_neg (by decide)]; rfl
  · rw [if_neg (by decide), if_neg (by decide), if_pos rfl]; rfl

/-- The cube of an owner. -/
def ownCube (b : Board) (o : Int) : List Tree := if Pending b ∨ b.cubeOwner ≠ o then [] else [cubeLeaf b.cube]

theorem ownCube_draws {a : List Elem} {o x y : Int} (h : cubeLooks rules pal x y a = true) (hf : pal.font ≠ []) (b : Board)
    (ho : k.cubeAt pal b o = if Pending b ∨ b.cubeOwner ≠ o then [] else k.cube pal x y b.cube) :
    KidsDraw rules k a (ownCube b o) (k.cubeAt pal b o) := by
  rw [ho]
  unfold ownCube
  split
  · exact kids_nil
  · exact kids_one (cube_draws h hf _)

theorem cubes_eq (b : Board) (ho : b.cubeOwner = 0 ∨ b.cubeOwner = 1 ∨ b.cubeOwner = 3) :
    (cubeTree b).cubeholder = .node ⟨.cubeholder, [], []⟩ (ownCube b 3) ∧
    (cubeTree b).home = (.node ⟨.home, playerAttr YOU, []⟩ (addedC YOU (15 - b.position.1.sum) ++ ownCube b 0),
      .node ⟨.home, playerAttr HIM, []⟩ (addedC HIM (15 - b.position.2.sum) ++ ownCube b 1)) := by
  unfold cubeTree ownCube
  by_cases hp : Pending b
  · rw [if_pos (show b.doubled = true ∧ b.onInnerAction ≠ b.onAction from hp)]
    simp only [hp, true_or, if_true, List.append_nil]
    exact ⟨rfl, rfl⟩
  · rw [if_neg (show ¬ (b.doubled = true ∧ b.onInnerAction ≠ b.onAction) from hp)]
    rcases ho with h | h | h <;> simp [hp, h, YOU, HIM, baseTree, Tree.elem, Tree.kids, newElem]

theorem point_draws {i : Nat} (h : pointLooks rules pal i anc = true)
    (hc : pal.odd ≠ [] ∧ pal.even ≠ []) (hz : k.scale 0 = 0) (b : Board) :
    Draws rules k anc (fullPoint b i) (k.point pal i (cnt b.position.1 (i - 1)) (cnt b.position.2 (24 - i))) := by
  have tri : ∀ e', e'.name = EName.point → looks (e' :: anc.reverse)
      (pointIs (column i) (if i ≤ 12 then 139 else 5) (decide (12 < i)) (if i % 2 = 1 then pal.odd else pal.even)) = true →
      drawElement k.scale (e' :: anc.reverse) = .ok [k.triangle i (if i % 2 = 1 then pal.odd else pal.even)] := by
    intro e' h1 h2
    refine draw_point h2 h1 ?_ k
    split
    · exact hc.1
    · exact hc.2
  unfold fullPoint Ink.point pointKids
  unfold pointLooks at h
  by_cases hi : i ≤ 12
  · simp only [hi, if_true] at h tri ⊢
    refine inner_draws (a := [_]) h tri fun x hx => ?_
    rw [Bool.and_eq_true] at hx
    exact kids_append (pile_draws hx.1 (by omega) hz _) (pile_draws hx.2 (by omega) hz _)
  · simp only [hi, if_false] at h tri ⊢
    refine inner_draws (a := [_]) h tri fun x hx => ?_
    rw [Bool.and_eq_true] at hx
    exact kids_append (pile_draws hx.2 (by omega) hz _) (pile_draws hx.1 (by omega) hz _)

/-- The picture with a plain style. -/
theorem plain_picture (h : plainLooks rules pal = true) (b : Board) (hs : Sensible b) (hw : Drawable b) (hd : DiceOk b)
    (hz : k.scale 0 = 0) : drawBoard rules k.scale b = .ok (k.picture pal b) := by
  have key : Draws rules k [] (fullTree b).board (k.picture pal b) := by
    unfold plainLooks at h
    rw [Bool.and_eq_true, decide_eq_true_eq] at h
    obtain ⟨⟨hf, hc⟩, h⟩ := h
    unfold ETree.board
    have hpic : k.picture pal b = k.rect 0 0 341 262 pal.board ::
      ((k.rect 291 0 50 232 pal.sheet ::
      ([k.rect 0 232 341 30 pal.action,
        k.text 0 232 341 30 (actionWords b).2 pal.font (ofSide (actionWords b).1 pal.actionInk)] ++
       ([k.text 316 93 25 46 (pyStr b.matchLength) pal.font pal.lengthInk] ++
       ((if b.crawford then [k.text 291 93 25 46 t!"*" pal.font pal.crawfordInk] else []) ++
       ([k.text 291 139 50 93 (pyStr b.score.1) pal.font pal.scoreInk.1] ++
        [k.text 291 0 50 93 (pyStr b.score.2) pal.font pal.scoreInk.2]))))) ++
      (k.rect 0 0 291 232 pal.position ::
       (([k.rect 0 0 291 5 pal.frame] ++ ([k.rect 0 227 291 5 pal.frame] ++
        ((k.rect 0 5 25 224 pal.holder :: k.cubeAt pal b 3) ++ (k.field pal b 0 ++
        ((k.rect 266 116 25 112 pal.home :: (k.pile 269 125 18 5 pal.font pal.chequer.1 (15 - b.position.1.sum) ++
          k.cubeAt pal b 0)) ++
        (k.rect 133 5 25 112 pal.bar :: k.pile 137 80 (-18) 4 pal.font pal.chequer.2 (cnt b.position.2 24))))))) ++
        (List.range 24).flatMap (fun i =>
          k.point pal (i + 1) (cnt b.position.1 i) (cnt b.position.2 (23 - i))) ++
        ((k.rect 133 116 25 112 pal.bar :: k.pile 137 135 18 4 pal.font pal.chequer.1 (cnt b.position.1 24)) ++
        ((k.rect 266 5 25 112 pal.home :: (k.pile 269 90 (-18) 5 pal.font pal.chequer.2 (15 - b.position.2.sum) ++
          k.cubeAt pal b 1)) ++
         k.field pal b 1))))) := by
      simp only [Ink.picture, List.cons_append, List.nil_append, List.append_assoc]
    rw [hpic]
    refine plain_draws h fun a ha => ?_
    rw [Bool.and_eq_true] at ha
    refine kids_cons ?_ (kids_one ?_)
    · exact plain_draws ha.1 fun m hm => match_draws hm hf b hs
    · refine plain_draws ha.2 fun q hq => ?_
      unfold positionLooks at hq
      simp only [Bool.and_eq_true] at hq
      obtain ⟨⟨⟨⟨⟨⟨⟨⟨⟨q1, q2⟩, q3⟩, q4⟩, q5⟩, q6⟩, q7⟩, q8⟩, q9⟩, q10⟩ := hq
      obtain ⟨c1, c2⟩ := cubes_eq b hs.owner
      rw [full_cubeholder, full_home, full_bar, full_points, fields_eq b hs, c1, c2]
      refine kids_append (kids_append (kids_cons ?_ (kids_cons ?_ (kids_cons ?_ (kids_cons ?_ (kids_cons ?_
        (kids_one ?_)))))) ?_) (kids_cons ?_ (kids_cons ?_ (kids_one ?_)))
      · exact plain_draws q1 fun _ _ => kids_nil
      · exact plain_draws q2 fun _ _ => kids_nil
      · exact plain_draws q3 fun x hx => ownCube_draws hx hf b (by simp [Ink.cubeAt])
      · exact field_draws (.inl rfl) q4 hf b hs hw hd
      · refine plain_draws q6 fun x hx => ?_
        rw [Bool.and_eq_true] at hx
        exact kids_append (pile_draws hx.1 (by omega) hz _) (ownCube_draws hx.2 hf b (by simp [Ink.cubeAt]))
      · exact plain_draws q9 fun x hx => pile_draws hx (by omega) hz _
      · refine kids_map _ _ _ fun i hi => ?_
        rw [List.all_eq_true] at q10
        have := point_draws (k := k) (q10 i hi) hc hz b
        rwa [show i + 1 - 1 = i by omega, show 24 - (i + 1) = 23 - i by omega] at this
      · exact plain_draws q8 fun x hx => pile_draws hx (by omega) hz _
      · refine plain_draws q7 fun x hx => ?_
        rw [Bool.and_eq_true] at hx
        exact kids_append (pile_draws hx.1 (by omega) hz _) (ownCube_draws hx.2 hf b (by simp [Ink.cubeAt]))
      · exact field_draws (.inr rfl) q5 hf b hs hw hd
  obtain ⟨t', h1, h2⟩ := key
  unfold drawBoard
  rw [(set_full b hs).1 hw]
  dsimp only
  rw [h1]
  dsimp only
  rw [show ([] : List Elem) = [].reverse from rfl, h2]
  unfold resultOf
  exact if_neg (by simp [Ink.picture])

end Bglib
