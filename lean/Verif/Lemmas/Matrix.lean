import Verif.Lemmas.SafariTree
import Verif.Lemmas.Theme.Matrix
/-
The picture drawn with the style matrix.
-/
namespace Bglib
open Spec Img

variable {rules : List Rule} {k : Ink} {anc : List Elem}

theorem matrix_ne (t : Text) : matrix t ≠ [] := by
  unfold matrix
  exact List.cons_ne_nil _ _

/-- Chequers drawn one by one; the place of the parent. -/
def heapIs (s : Spot) (max : Int) (colour : Text) : List (Text × Option Value) :=
  cardIs s.at_.1 s.at_.2 20 20 false (matrix (t!"checker_" ++ colour)) ++
  [(t!"background", none), (t!"color", none), (t!"font", strIs matrixFont), (t!"max_count", some (.int max)),
   (t!"hide_count", some (.bool false))]

/-- An offset that may be missing. -/
def offsetIs (n : Text) (v : Int) (up : List Elem) : Bool := decide (attrIntOr0 n up = v)

def stepsAre (s : Spot) (up : List Elem) : Bool :=
  offsetIs t!"x_offset" s.step up && offsetIs t!"y_offset" 0 up && offsetIs t!"x_offset2" s.row.1 up &&
    offsetIs t!"y_offset2" s.row.2 up

theorem places_nth (l : Pile) (s : Spot) (hstep : ∀ p, l.next p = k.onward s p) (n : Nat) (j : Nat) :
    l.places n (k.nth s j) = ((List.range n).map (fun i => k.nth s (j + i)), k.nth s (j + n)) := by
  induction n generalizing j with
  | zero => rfl
  | succ n ih =>
    rw [Pile.places, hstep, show k.onward s (k.nth s j) = k.nth s (j + 1) from rfl, ih]
    rw [List.range_succ_eq_map, List.map_cons, List.map_map]
    refine Prod.ext ?_ ?_
    · refine List.cons_eq_cons.2 ⟨rfl, ?_⟩
      apply List.map_congr_left
      intro i _
      simp only [Function.comp_apply, Nat.succ_eq_add_one, Nat.add_assoc, Nat.add_comm 1]
    · simp only [Nat.add_assoc, Nat.add_comm 1]

theorem draw_heap {e : Elem} {up : List Elem} {s : Spot} {max n : Int} {colour : Text}
    (hl : looks (e :: up) (heapIs s max colour) = true) (hs : stepsAre s (e :: up) = true)
    (hc : looks up (boxIs s.at_.1 s.at_.2 s.size.1 s.size.2) = true)
    (hn : e.name = .chequer) (hd : e.data = [pyStr n]) (hm : 0 ≤ max) (k : Ink) (hz : k.scale 0 = 0) :
    drawElement k.scale (e :: up) = .ok (k.heap s max colour n) := by
  simp only [heapIs, cardIs, looks_append, looks_cons] at hl
  obtain ⟨⟨hb, h1, h2, -⟩, h3, h4, h5, h6, h7, -⟩ := hl
  simp only [stepsAre, offsetIs, Bool.and_eq_true, decide_eq_true_eq] at hs
  obtain ⟨⟨⟨s1, s2⟩, s3⟩, s4⟩ := hs
  refine element_of (a := []) (back_none h3 k) ?_
  rw [own_image h1]
  have : drawElem k.scale (e :: up) = drawChequer k.scale (e :: up) := by
    unfold drawElem; dsimp only
    rw [hn]
  rw [this]
  have hco : cornerOf k.scale (e :: up) = .ok (k.scale s.at_.1 + k.scale s.size.1, k.scale s.at_.2 + k.scale s.size.2) := by
    simp only [boxIs, looks_cons] at hc
    obtain ⟨c1, c2, c3, c4, -⟩ := hc
    unfold cornerOf
    simp only [bind, Except.bind, pure, Except.pure, int_of c1, int_of c2, int_of c3, int_of c4]
  have hnext : ∀ p, (pileOf k.scale (e :: up) (k.scale 20, k.scale 20)
      (k.scale s.at_.1 + k.scale s.size.1, k.scale s.at_.2 + k.scale s.size.2)).next p = k.onward s p := by
    intro p
    unfold Pile.next pileOf Ink.onward
    simp only [s1, s2, s3, s4, hz, Int.add_zero]
  have hp := places_nth (k := k) _ s hnext
  have hlab : ∀ q, pileLabel (e :: up) n max q (k.scale 20, k.scale 20) =
      if n > max then [Op.text q (k.scale 20, k.scale 20) (pyStr n) matrixFont t!"white"] else [] := by
    intro q
    unfold pileLabel
    simp only [text_of h5, flag_of h7, text_none h4, Option.getD_none]
    by_cases h : n > max
    · rw [if_pos ⟨by simp, h⟩, if_pos h]
    · rw [if_neg (fun h' => h h'.2), if_neg h]
  have hp0 := fun m => hp m 0
  simp only [Ink.nth, Nat.zero_add] at hp0
  unfold drawChequer chequerMark
  simp only [bind, Except.bind, pure, Except.pure, box_is hb, truthy_of h1 (matrix_ne _), int_of h6, firstInt_of hd,
    flag_of h2, hco, hp0, hlab]
  by_cases h0 : (min n max).toNat = 0
  · rw [if_pos h0, h0]
    by_cases h : n > max
    · have : max = 0 := by omega
      subst this
      rfl
    · rw [if_neg h, if_neg h]; rfl
  · rw [if_neg h0]
    simp only [List.map_map]
    congr 2
    by_cases h : n > max
    · rw [if_pos h, if_pos h, show min n max = max by omega]
    · rw [if_neg h, if_neg h]

/-- The check of chequers. -/
def heapLooks (rules : List Rule) (p : Int) (s : Spot) (max : Int) (colour : Text) (anc : List Elem) : Bool :=
  looks anc.reverse (boxIs s.at_.1 s.at_.2 s.size.1 s.size.2) &&
  let rs := rules.filter (concerns .chequer)
  decide (rs.flatMap (mentioned .chequer) = []) &&
  match applyRules anc ⟨.chequer, playerAttr p, [[]]⟩ rs with
  | .ok e => looks (e :: anc.reverse) (heapIs s max colour) && stepsAre s (e :: anc.reverse)
  | .error _ => false

theorem steps_data (s : Spot) (e : Elem) (up : List Elem) (d : List Text) :
    stepsAre s (withData d e :: up) = stepsAre s (e :: up) := rfl

theorem heap_draws {p : Int} {s : Spot} {max : Int} {colour : Text} (h : heapLooks rules p s max colour anc = true)
    (hm : 0 ≤ max) (hz : k.scale 0 = 0) (n : Int) : KidsDraw rules k anc (addedC p n) (k.heap s max colour n) := by
  unfold addedC
  by_cases hn : n = 0
  · subst hn
    rw [if_pos rfl]
    unfold Ink.heap
    rw [if_neg (by omega), show (min 0 max).toNat = 0 by omega]
    exact kids_nil
  · rw [if_neg hn]
    unfold heapLooks at h
    simp only [Bool.and_eq_true] at h
    obtain ⟨h1, h2, h3⟩ := h
    have hl : ∃ e, applyRules anc ⟨.chequer, playerAttr p, [pyStr n]⟩ rules = .ok e ∧ e.name = .chequer ∧ e.data = [pyStr n] ∧
        looks (e :: anc.reverse) (heapIs s max colour) = true ∧ stepsAre s (e :: anc.reverse) = true := by
      cases hr : applyRules anc ⟨.chequer, playerAttr p, [[]]⟩ (rules.filter (concerns .chequer)) with
      | error x => rw [hr] at h3; simp at h3
      | ok e =>
        rw [hr] at h3
        simp only [Bool.and_eq_true] at h3
        have hll : leafLooks rules .chequer (playerAttr p) [] anc = true := by
          unfold leafLooks
          rw [Bool.and_eq_true]
          refine ⟨h2, ?_⟩
          rw [hr]
          rfl
        rw [decide_eq_true_eq] at h2
        have hh := rules_data (rules.filter (concerns .chequer)) anc ⟨.chequer, playerAttr p, [[]]⟩ [pyStr n] (by
          intro r hr s hs he t ht
          have hm : t ∈ (rules.filter (concerns .chequer)).flatMap (mentioned .chequer) := by
            rw [List.mem_flatMap]
            refine ⟨r, hr, ?_⟩
            unfold mentioned
            rw [List.mem_filterMap]
            exact ⟨s, hs, by rw [if_pos he, ht]⟩
          rw [h2] at hm
          simp at hm)
        rw [hr] at hh
        have hh' : applyRules anc ⟨.chequer, playerAttr p, [pyStr n]⟩ rules = .ok (withData [pyStr n] e) := by
          rw [← rules_filter rules anc _ .chequer rfl]
          exact hh
        exact ⟨_, hh', (rules_keep hr).1, rfl, h3.1, by rw [steps_data]; exact h3.2⟩
    obtain ⟨e, e1, e2, e3, e4, e5⟩ := hl
    have := node_draws e1 (draw_heap e4 e5 h1 e2 e3 hm k hz) kids_nil
    rw [List.append_nil] at this
    exact kids_one this

def matrixDieLooks (rules : List Rule) (side : Text) (x y : Int) (colour : Text) (anc : List Elem) : Bool :=
  leafCases rules .die [(t!"id", .str side)] (numbered 1 6 fun j =>
    cardIs x y 30 30 false (matrix (t!"dice_" ++ (colour ++ (t!"_" ++ decimal j)))) ++
      [(t!"background", none), (t!"diestyle", strIs t!"dot")]) blankIs anc

theorem matrix_die_draws {side colour : Text} {x y n : Int} (h : matrixDieLooks rules side x y colour anc = true)
    (h1 : 1 ≤ n) (h6 : n ≤ 6) : Draws rules k anc (.node ⟨.die, [(t!"id", .str side)], [pyStr n]⟩ [])
      [k.image x y 30 30 false (matrix (t!"dice_" ++ (colour ++ (t!"_" ++ pyStr n))))] := by
  refine case_draws h fun e' e1 e2 e3 => ?_
  have : decimal n.toNat = pyStr n := by
    rw [← pyStr_nat, show ((n.toNat : Nat) : Int) = n by omega]
  rw [lookup_numbered, if_pos (by omega), Option.getD_some, this] at e3
  exact draw_die_card e3 (matrix_ne _) e1 k

def matrixFieldLooks (rules : List Rule) (p : Int) (anc : List Elem) : Bool :=
  matrixDieLooks rules t!"right" (if p = 0 then 735 else 105) (if p = 0 then 280 else 480) (if p = 0 then t!"blue" else t!"red") anc &&
  matrixDieLooks rules t!"left" (if p = 0 then 690 else 60) (if p = 0 then 260 else 500) (if p = 0 then t!"blue" else t!"red") anc &&
  leafLooks rules .cube [] blankIs anc &&
  leafLooks rules .resign [] blankIs anc

def matrixMatchLooks (rules : List Rule) (anc : List Elem) : Bool :=
  leafLooks rules .action (playerAttr YOU)
    (cardIs 830 670 100 100 false (matrix t!"ind_blue_r") ++ [(t!"background", none)]) anc &&
  leafLooks rules .action (playerAttr HIM)
    (cardIs 830 30 100 100 false (matrix t!"ind_red_l") ++ [(t!"background", none)]) anc &&
  leafLooks rules .length [] blankIs anc &&
  leafLooks rules .crawford [] blankIs anc &&
  leafLooks rules .score (playerAttr YOU) (inkIs 800 500 200 300 matrixFont t!"#3cb7ff" ++ [(t!"background", none)]) anc &&
  leafLooks rules .score (playerAttr HIM) (inkIs 800 0 200 300 matrixFont t!"#fd4993" ++ [(t!"background", none)]) anc

def matrixPointLooks (rules : List Rule) (i : Nat) (anc : List Elem) : Bool :=
  innerLooks rules (newPoint i).elem blankIs (fun a =>
    heapLooks rules YOU (pointSpot i) 8 t!"blue" a && heapLooks rules HIM (pointSpot i) 8 t!"red" a) anc

def matrixPositionLooks (rules : List Rule) (anc : List Elem) : Bool :=
  innerLooks rules ⟨.topFrame, [], []⟩ blankIs (fun _ => true) anc &&
  innerLooks rules ⟨.bottomFrame, [], []⟩ blankIs (fun _ => true) anc &&
  innerLooks rules ⟨.cubeholder, [], []⟩ blankIs (leafLooks rules .cube [] blankIs) anc &&
  innerLooks rules ⟨.field, playerAttr YOU, []⟩ blankIs (matrixFieldLooks rules YOU) anc &&
  innerLooks rules ⟨.field, playerAttr HIM, []⟩ blankIs (matrixFieldLooks rules HIM) anc &&
  innerLooks rules ⟨.home, playerAttr YOU, []⟩ blankIs
    (fun a => heapLooks rules YOU ⟨(160, 670), (500, 70), 30, (0, 0)⟩ 15 t!"blue" a && leafLooks rules .cube [] blankIs a) anc &&
  innerLooks rules ⟨.home, playerAttr HIM, []⟩ blankIs
    (fun a => heapLooks rules HIM ⟨(160, 60), (500, 70), 30, (0, 0)⟩ 15 t!"red" a && leafLooks rules .cube [] blankIs a) anc &&
  innerLooks rules ⟨.bar, playerAttr YOU, []⟩ blankIs
    (heapLooks rules YOU ⟨(160, 770), (25, 111), 0, (0, 0)⟩ 8 t!"blue") anc &&
  innerLooks rules ⟨.bar, playerAttr HIM, []⟩ blankIs
    (heapLooks rules HIM ⟨(160, 10), (25, 111), 0, (0, 0)⟩ 8 t!"red") anc &&
  (List.range 24).all fun i => matrixPointLooks rules (i + 1) anc

def matrixLooks (rules : List Rule) : Bool :=
  innerLooks rules ⟨.board, [], []⟩ blankIs (fun a =>
    innerLooks rules ⟨.match, [], []⟩ blankIs (matrixMatchLooks rules) a &&
    innerLooks rules ⟨.position, [], []⟩ (cardIs 0 0 800 800 false (matrix t!"position") ++ [(t!"background", none)])
      (matrixPositionLooks rules) a) []

theorem matrix_looks : matrixLooks Matrix.rules = true := by decide +kernel

end Bglib
