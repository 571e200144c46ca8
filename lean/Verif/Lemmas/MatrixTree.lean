import Verif.Lemmas.Matrix
/-
The whole picture drawn with the style matrix.
-/
namespace Bglib
open Spec Img

variable {rules : List Rule} {k : Ink} {anc : List Elem}

theorem blank_leaf {n : EName} {attrs : List (Text × Value)} {d : Text} (h : leafLooks rules n attrs blankIs anc = true) :
    Draws rules k anc (.node ⟨n, attrs, [d]⟩ []) [] :=
  leaf_draws h fun _ _ _ h3 => draw_blank h3 k

theorem matrix_match_draws {a : List Elem} (h : matrixMatchLooks rules a = true) (b : Board) (hs : Sensible b) :
    KidsDraw rules k a [(fullTree b).action, (fullTree b).length, (fullTree b).crawford, (fullTree b).score.1,
      (fullTree b).score.2]
      ([if (actionWords b).1 = 0 then k.image 830 670 100 100 false (matrix t!"ind_blue_r")
        else k.image 830 30 100 100 false (matrix t!"ind_red_l")] ++ ([] ++ ([] ++
       ([k.text 800 500 200 300 (pyStr b.score.1) matrixFont t!"#3cb7ff"] ++
        [k.text 800 0 200 300 (pyStr b.score.2) matrixFont t!"#fd4993"])))) := by
  unfold matrixMatchLooks at h
  simp only [Bool.and_eq_true] at h
  obtain ⟨⟨⟨⟨⟨m1, m2⟩, m3⟩, m4⟩, m5⟩, m6⟩ := h
  rw [full_length, full_crawford, full_score, full_action]
  refine kids_cons ?_ (kids_cons (blank_leaf m3) (kids_cons (blank_leaf m4) (kids_cons ?_ (kids_one ?_))))
  · rcases action_who b hs with h | h <;> rw [h]
    · exact leaf_draws m1 fun e' h1 h2 h3 => draw_card h3 (matrix_ne _) (by rw [h1]; rfl) k
    · exact leaf_draws m2 fun e' h1 h2 h3 => draw_card h3 (matrix_ne _) (by rw [h1]; rfl) k
  · refine leaf_draws m5 fun e' h1 h2 h3 => ?_
    rw [looks_append, looks_cons] at h3
    exact element_of (back_none h3.2.1 k) (draw_label h3.1 (by decide) (.inr (.inr h1)) h2 k)
  · refine leaf_draws m6 fun e' h1 h2 h3 => ?_
    rw [looks_append, looks_cons] at h3
    exact element_of (back_none h3.2.1 k) (draw_label h3.1 (by decide) (.inr (.inr h1)) h2 k)

theorem matrix_field_draws {p : Int} (hp : p = YOU ∨ p = HIM)
    (h : innerLooks rules ⟨.field, playerAttr p, []⟩ blankIs (matrixFieldLooks rules p) anc = true)
    (b : Board) (hd : DiceOk b) :
    Draws rules k anc (.node ⟨.field, playerAttr p, []⟩ (ownKids b p)) (k.matrixDice b p) := by
  refine blank_draws h fun x hx => ?_
  unfold matrixFieldLooks at hx
  simp only [Bool.and_eq_true] at hx
  obtain ⟨⟨⟨x1, x2⟩, x3⟩, x4⟩ := hx
  unfold ownKids fieldKids
  by_cases hr : b.rolled = (0, 0)
  · rw [if_pos hr, show k.matrixDice b p = [] from if_neg fun h => h.1 hr]
    repeat' split
    all_goals first | exact kids_nil | exact kids_one (blank_leaf x3) | exact kids_one (blank_leaf x4)
  · unfold Ink.matrixDice
    rw [if_neg hr]
    rcases hd with h | ⟨d1, d2, d3, d4⟩
    · exact absurd h hr
    by_cases hin : b.onAction = p
    · rw [if_pos hin, if_pos ⟨hr, hin⟩]
      rcases hp with rfl | rfl
      · exact kids_cons (matrix_die_draws x1 d1 d2) (kids_one (matrix_die_draws x2 d3 d4))
      · exact kids_cons (matrix_die_draws x1 d1 d2) (kids_one (matrix_die_draws x2 d3 d4))
    · rw [if_neg hin, if_neg (fun h => hin h.2)]
      exact kids_nil

theorem matrix_point_draws {i : Nat} (h : matrixPointLooks rules i anc = true) (b : Board) (hz : k.scale 0 = 0) :
    Draws rules k anc (fullPoint b i) (k.matrixPoint i (cnt b.position.1 (i - 1)) (cnt b.position.2 (24 - i))) := by
  unfold fullPoint Ink.matrixPoint pointKids
  unfold matrixPointLooks at h
  refine blank_draws h fun x hx => ?_
  rw [Bool.and_eq_true] at hx
  by_cases hi : i ≤ 12
  · simp only [hi, if_true]
    exact kids_append (heap_draws hx.1 (by omega) hz _) (heap_draws hx.2 (by omega) hz _)
  · simp only [hi, if_false]
    exact kids_append (heap_draws hx.2 (by omega) hz _) (heap_draws hx.1 (by omega) hz _)

theorem blank_cube {a : List Elem} (h : leafLooks rules .cube [] blankIs a = true) (b : Board) (o : Int) :
    KidsDraw rules k a (ownCube b o) [] := by
  unfold ownCube
  split
  · exact kids_nil
  · exact kids_one (blank_leaf h)

/-- The picture with the style matrix. -/
theorem matrix_picture (b : Board) (hs : Sensible b) (hw : Drawable b) (hd : DiceOk b) (hz : k.scale 0 = 0) :
    drawBoard Matrix.rules k.scale b = .ok (k.matrixPicture b) := by
  have key : Draws Matrix.rules k [] (fullTree b).board (k.matrixPicture b) := by
    have h := matrix_looks
    unfold ETree.board
    unfold matrixLooks at h
    have hpic : k.matrixPicture b =
      (([if (actionWords b).1 = 0 then k.image 830 670 100 100 false (matrix t!"ind_blue_r")
        else k.image 830 30 100 100 false (matrix t!"ind_red_l")] ++ ([] ++ ([] ++
       ([k.text 800 500 200 300 (pyStr b.score.1) matrixFont t!"#3cb7ff"] ++
        [k.text 800 0 200 300 (pyStr b.score.2) matrixFont t!"#fd4993"])))) ++
      (k.image 0 0 800 800 false (matrix t!"position") ::
       (([] ++ ([] ++ ([] ++ (k.matrixDice b 0 ++
        ((k.heap ⟨(160, 670), (500, 70), 30, (0, 0)⟩ 15 t!"blue" (15 - b.position.1.sum) ++ []) ++
         k.heap ⟨(160, 10), (25, 111), 0, (0, 0)⟩ 8 t!"red" (cnt b.position.2 24)))))) ++
        (List.range 24).flatMap (fun i =>
          k.matrixPoint (i + 1) (cnt b.position.1 i) (cnt b.position.2 (23 - i))) ++
        (k.heap ⟨(160, 770), (25, 111), 0, (0, 0)⟩ 8 t!"blue" (cnt b.position.1 24) ++
        ((k.heap ⟨(160, 60), (500, 70), 30, (0, 0)⟩ 15 t!"red" (15 - b.position.2.sum) ++ []) ++
         k.matrixDice b 1))))) := by
      simp only [Ink.matrixPicture, List.cons_append, List.nil_append, List.append_assoc]
    rw [hpic]
    refine blank_draws h fun a ha => ?_
    rw [Bool.and_eq_true] at ha
    refine kids_cons ?_ (kids_one ?_)
    · exact blank_draws ha.1 fun m hm => matrix_match_draws hm b hs
    · refine inner_draws (a := [k.image 0 0 800 800 false (matrix t!"position")]) ha.2
        (fun _ h1 h => draw_card h (matrix_ne _) (by rw [h1]; rfl) k) fun q hq => ?_
      unfold matrixPositionLooks at hq
      simp only [Bool.and_eq_true] at hq
      obtain ⟨⟨⟨⟨⟨⟨⟨⟨⟨q1, q2⟩, q3⟩, q4⟩, q5⟩, q6⟩, q7⟩, q8⟩, q9⟩, q10⟩ := hq
      obtain ⟨c1, c2⟩ := cubes_eq b hs.owner
      rw [full_cubeholder, full_home, full_bar, full_points, fields_eq b hs, c1, c2]
      refine kids_append (kids_append (kids_cons ?_ (kids_cons ?_ (kids_cons ?_ (kids_cons ?_ (kids_cons ?_
        (kids_one ?_)))))) ?_) (kids_cons ?_ (kids_cons ?_ (kids_one ?_)))
      · exact blank_draws q1 fun _ _ => kids_nil
      · exact blank_draws q2 fun _ _ => kids_nil
      · exact blank_draws q3 fun x hx => blank_cube hx b _
      · exact matrix_field_draws (.inl rfl) q4 b hd
      · refine blank_draws q6 fun x hx => ?_
        rw [Bool.and_eq_true] at hx
        exact kids_append (heap_draws hx.1 (by omega) hz _) (blank_cube hx.2 b _)
      · exact blank_draws q9 fun x hx => heap_draws hx (by omega) hz _
      · refine kids_map _ _ _ fun i hi => ?_
        rw [List.all_eq_true] at q10
        have := matrix_point_draws (k := k) (q10 i hi) b hz
        rwa [show i + 1 - 1 = i by omega, show 24 - (i + 1) = 23 - i by omega] at this
      · exact blank_draws q8 fun x hx => heap_draws hx (by omega) hz _
      · refine blank_draws q7 fun x hx => ?_
        rw [Bool.and_eq_true] at hx
        exact kids_append (heap_draws hx.1 (by omega) hz _) (blank_cube hx.2 b _)
      · exact matrix_field_draws (.inr rfl) q5 b hd
  obtain ⟨t', h1, h2⟩ := key
  unfold drawBoard
  rw [(set_full b hs).1 hw]
  dsimp only
  rw [h1]
  dsimp only
  rw [show ([] : List Elem) = [].reverse from rfl, h2]
  unfold resultOf
  exact if_neg (by simp [Ink.matrixPicture])

end Bglib
