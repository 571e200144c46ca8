import Verif.Spec.Cards
import Verif.Lemmas.SafariTree
import Verif.Lemmas.Legible
/-
A picture drawn with the style matrix can be read back.
-/
namespace Bglib
open Spec Img

variable {k : Ink}

theorem mag_far (hm : Magnifies k.scale) {x c y : Int} (hx : 0 ≤ x) (hc : 0 ≤ c) (h : x + c ≤ y) :
    k.scale x + k.scale c ≤ k.scale y := by
  have h1 := (hm.sum x c hx hc).1
  have h2 := (hm.sum (x + c) (y - (x + c)) (by omega) (by omega)).1
  have h3 := hm.nonneg (y - (x + c)) (by omega)
  rw [show x + c + (y - (x + c)) = y by omega] at h2
  omega

theorem mag_zero (hm : Magnifies k.scale) : k.scale 0 = 0 := by
  have := hm.neg 0
  rw [show -(0 : Int) = 0 from rfl] at this
  omega

/-- The places of the chequers on a point. -/
theorem point_nth (hm : Magnifies k.scale) (x y : Int) (j : Nat) (hj : j ≤ 8) :
    k.nth ⟨(x, y), (100, 100), 30, (-90, 30)⟩ j =
      (k.scale x + ((j % 3 : Nat) : Int) * k.scale 30 - ((j / 3 : Nat) : Int) * (k.scale 90 - 3 * k.scale 30),
       k.scale y + ((j / 3 : Nat) : Int) * k.scale 30) := by
  have a1 := hm.sum 10 10 (by omega) (by omega)
  have a2 := hm.sum 10 20 (by omega) (by omega)
  have a3 := hm.sum 30 30 (by omega) (by omega)
  have a4 := hm.sum 60 30 (by omega) (by omega)
  have a5 := hm.sum 90 10 (by omega) (by omega)
  have a6 := hm.large
  have a7 := hm.neg 90
  rw [show (10 : Int) + 10 = 20 from rfl] at a1
  rw [show (10 : Int) + 20 = 30 from rfl] at a2
  rw [show (30 : Int) + 30 = 60 from rfl] at a3
  rw [show (60 : Int) + 30 = 90 from rfl] at a4
  rw [show (90 : Int) + 10 = 100 from rfl] at a5
  induction j with
  | zero => simp [Ink.nth]
  | succ j ih =>
    rw [Ink.nth, ih (by omega)]
    clear ih
    unfold Ink.onward
    dsimp only
    rw [a7]
    generalize k.scale 10 = s10 at *
    generalize k.scale 20 = s20 at *
    generalize k.scale 30 = s30 at *
    generalize k.scale 60 = s60 at *
    generalize k.scale 90 = s90 at *
    generalize k.scale 100 = s100 at *
    generalize k.scale x = X at *
    generalize k.scale y = Y at *
    have hj : j = 0 ∨ j = 1 ∨ j = 2 ∨ j = 3 ∨ j = 4 ∨ j = 5 ∨ j = 6 ∨ j = 7 := by omega
    rcases hj with rfl | rfl | rfl | rfl | rfl | rfl | rfl | rfl
    all_goals
      simp only [Nat.reduceMod, Nat.reduceDiv, Nat.reduceAdd, Int.cast_ofNat_Int]
      first
      | rw [if_pos (by omega)]; refine Prod.ext ?_ ?_ <;> dsimp only <;> omega
      | rw [if_neg (by omega)]; refine Prod.ext ?_ ?_ <;> dsimp only <;> omega

/-- Where something is drawn. -/
def opAt : Op → Int × Int
  | .rect p _ _ => p
  | .ellipse p _ _ => p
  | .polygon _ _ => (0, 0)
  | .text p _ _ _ _ => p
  | .image _ _ _ p => p

theorem heap_at {s : Spot} {max n : Int} {c : Text} {o : Op} (ho : o ∈ k.heap s max c n) :
    ∃ j, j ≤ max.toNat ∧ opAt o = k.nth s j := by
  unfold Ink.heap at ho
  rw [List.mem_append, List.mem_map] at ho
  rcases ho with ⟨j, hj, rfl⟩ | ho
  · rw [List.mem_range] at hj
    exact ⟨j, by omega, rfl⟩
  · split at ho
    · rw [List.mem_singleton] at ho
      subst ho
      exact ⟨_, Nat.le_refl _, rfl⟩
    · simp at ho

/-- A row without a second one stays at its height. -/
theorem row_nth (hz : k.scale 0 = 0) (x y w h d : Int) (j : Nat) : (k.nth ⟨(x, y), (w, h), d, (0, 0)⟩ j).2 = k.scale y := by
  induction j with
  | zero => rfl
  | succ j ih =>
    rw [Ink.nth]
    unfold Ink.onward
    dsimp only
    rw [hz]
    split
    · show _ + 0 = _
      rw [ih, Int.add_zero]
    · exact ih

theorem row_at (hz : k.scale 0 = 0) {x y w h d max n : Int} {c : Text} {o : Op}
    (ho : o ∈ k.heap ⟨(x, y), (w, h), d, (0, 0)⟩ max c n) : (opAt o).2 = k.scale y := by
  obtain ⟨j, -, hj⟩ := heap_at ho
  rw [hj, row_nth hz]

theorem heap_inj {s : Spot} {max n m : Int} {c : Text} (hn : 0 ≤ n) (hm : 0 ≤ m) (hx : 0 ≤ max)
    (h : k.heap s max c n = k.heap s max c m) : n = m := by
  have hl := congrArg List.length h
  unfold Ink.heap at hl h
  simp only [List.length_append, List.length_map, List.length_range] at hl
  by_cases h1 : n > max
  · by_cases h2 : m > max
    · rw [if_pos h1, if_pos h2, show min n max = max by omega, show min m max = max by omega] at h
      have := List.append_cancel_left h
      simp only [List.cons.injEq, Op.text.injEq, and_true, true_and] at this
      exact pyStr_inj this
    · rw [if_pos h1, if_neg h2] at hl
      simp only [List.length_cons, List.length_nil] at hl
      omega
  · by_cases h2 : m > max
    · rw [if_neg h1, if_pos h2] at hl
      simp only [List.length_cons, List.length_nil] at hl
      omega
    · rw [if_neg h1, if_neg h2] at hl
      simp only [List.length_nil] at hl
      omega

/-- A chequer of a colour or a number. -/
def ofChequer (c : Text) : Op → Bool
  | .image src _ _ _ => decide (src = matrix (t!"checker_" ++ c))
  | .text _ _ _ _ _ => true
  | _ => false

theorem heap_colour {s : Spot} {max n : Int} {c : Text} : ∀ o ∈ k.heap s max c n, ofChequer c o = true := by
  intro o ho
  unfold Ink.heap at ho
  rw [List.mem_append, List.mem_map] at ho
  rcases ho with ⟨j, -, rfl⟩ | ho
  · simp [ofChequer]
  · split at ho
    · rw [List.mem_singleton] at ho; subst ho; rfl
    · simp at ho

theorem heap_stops {s : Spot} {max n : Int} {c d : Text} (hx : 0 < max)
    (hd : matrix (t!"checker_" ++ d) ≠ matrix (t!"checker_" ++ c)) : StopsAt (ofChequer c) (k.heap s max d n) := by
  unfold Ink.heap
  by_cases h : (min n max).toNat = 0
  · rw [h, if_neg (by omega)]
    intro x hx
    simp at hx
  · obtain ⟨j, hj⟩ : ∃ j, (min n max).toNat = j + 1 := ⟨(min n max).toNat - 1, by omega⟩
    rw [hj, List.range_succ_eq_map, List.map_cons, List.cons_append]
    exact stops_cons (decide_eq_false hd)

theorem two_heaps {s : Spot} {c d : Text} {u v u' v' : Int} (hd : matrix (t!"checker_" ++ d) ≠ matrix (t!"checker_" ++ c))
    (hu : 0 ≤ u) (hv : 0 ≤ v) (hu' : 0 ≤ u') (hv' : 0 ≤ v')
    (h : k.heap s 8 c u ++ k.heap s 8 d v = k.heap s 8 c u' ++ k.heap s 8 d v') : u = u' ∧ v = v' := by
  obtain ⟨h1, h2⟩ := cut_unique h heap_colour heap_colour (heap_stops (by omega) hd) (heap_stops (by omega) hd)
  exact ⟨heap_inj hu hu' (by omega) h1, heap_inj hv hv' (by omega) h2⟩

theorem matrix_point_inj {i : Nat} {u v u' v' : Int} (hu : 0 ≤ u) (hv : 0 ≤ v) (hu' : 0 ≤ u') (hv' : 0 ≤ v')
    (h : k.matrixPoint i u v = k.matrixPoint i u' v') : u = u' ∧ v = v' := by
  unfold Ink.matrixPoint at h
  split at h
  · exact two_heaps (by decide) hu hv hu' hv' h
  · exact (two_heaps (by decide) hv hu hv' hu' h).symm

/-- In the box of a point. -/
def inBox (k : Ink) (p : Int × Int) (o : Op) : Bool :=
  decide (k.scale p.1 - 4 ≤ (opAt o).1 ∧ (opAt o).1 ≤ k.scale p.1 + 2 * k.scale 30 ∧
    k.scale p.2 ≤ (opAt o).2 ∧ (opAt o).2 ≤ k.scale p.2 + 2 * k.scale 30)

theorem point_at (hm : Magnifies k.scale) {i : Nat} {u v : Int} {o : Op} (ho : o ∈ k.matrixPoint i u v) :
    inBox k (corner i) o = true := by
  have : ∃ j, j ≤ 8 ∧ opAt o = k.nth (pointSpot i) j := by
    unfold Ink.matrixPoint at ho
    split at ho <;> rw [List.mem_append] at ho <;> rcases ho with ho | ho <;> exact heap_at ho
  obtain ⟨j, hj, e⟩ := this
  have a3 := hm.sum 30 30 (by omega) (by omega)
  have a4 := hm.sum 60 30 (by omega) (by omega)
  have a6 := hm.nonneg 30 (by omega)
  rw [show (30 : Int) + 30 = 60 from rfl] at a3
  rw [show (60 : Int) + 30 = 90 from rfl] at a4
  unfold inBox
  rw [decide_eq_true_eq, e]
  unfold pointSpot
  rw [show corner i = ((corner i).1, (corner i).2) from rfl, point_nth hm _ _ j hj]
  dsimp only
  generalize k.scale 30 = s30 at *
  generalize k.scale 60 = s60 at *
  generalize k.scale 90 = s90 at *
  have hj : j = 0 ∨ j = 1 ∨ j = 2 ∨ j = 3 ∨ j = 4 ∨ j = 5 ∨ j = 6 ∨ j = 7 ∨ j = 8 := by omega
  rcases hj with rfl | rfl | rfl | rfl | rfl | rfl | rfl | rfl | rfl <;>
    simp only [Nat.reduceMod, Nat.reduceDiv, Int.cast_ofNat_Int] <;> omega

/-- Points are apart. -/
theorem corners_apart : ∀ i, i < 24 → ∀ j, j < 24 → i ≠ j →
    (corner (i + 1)).1 + 100 ≤ (corner (j + 1)).1 ∨ (corner (j + 1)).1 + 100 ≤ (corner (i + 1)).1 ∨
    (corner (i + 1)).2 + 100 ≤ (corner (j + 1)).2 ∨ (corner (j + 1)).2 + 100 ≤ (corner (i + 1)).2 := by decide +kernel

theorem corners_within : ∀ i, i < 24 → 160 ≤ (corner (i + 1)).1 ∧ (corner (i + 1)).1 ≤ 560 ∧ 160 ≤ (corner (i + 1)).2 ∧
    (corner (i + 1)).2 ≤ 560 := by decide +kernel

theorem mag_wide (hm : Magnifies k.scale) : 2 * k.scale 30 + 4 < k.scale 100 := by
  have := mag_far hm (x := 30) (c := 30) (y := 60) (by omega) (by omega) (by omega)
  have := mag_far hm (x := 60) (c := 10) (y := 90) (by omega) (by omega) (by omega)
  have := mag_far hm (x := 90) (c := 10) (y := 100) (by omega) (by omega) (by omega)
  have := hm.large
  omega

theorem boxes_apart (hm : Magnifies k.scale) {i j : Nat} (hi : i < 24) (hj : j < 24) (hne : i ≠ j) {o : Op}
    (h1 : inBox k (corner (i + 1)) o = true) : inBox k (corner (j + 1)) o = false := by
  rw [Bool.eq_false_iff]
  intro h2
  unfold inBox at h1 h2
  rw [decide_eq_true_eq] at h1 h2
  have w := mag_wide hm
  have b1 := corners_within i hi
  have b2 := corners_within j hj
  rcases corners_apart i hi j hj hne with h | h | h | h
  all_goals
    have := mag_far hm (by omega) (by omega) h
    omega

theorem points_filter (hm : Magnifies k.scale) (f g : Nat → Int) (i : Nat) (hi : i < 24) (l : List Nat)
    (hl : l.Nodup) (hlt : ∀ j ∈ l, j < 24) :
    (l.flatMap fun j => k.matrixPoint (j + 1) (f j) (g j)).filter (inBox k (corner (i + 1))) =
      if i ∈ l then k.matrixPoint (i + 1) (f i) (g i) else [] := by
  induction l with
  | nil => rfl
  | cons j l ih =>
    rw [List.flatMap_cons, List.filter_append, ih (List.nodup_cons.1 hl).2 fun a ha => hlt a (List.mem_cons_of_mem _ ha)]
    by_cases hij : i = j
    · subst hij
      rw [if_neg (List.nodup_cons.1 hl).1, if_pos List.mem_cons_self, List.append_nil, List.filter_eq_self]
      exact fun o ho => point_at hm ho
    · have : (k.matrixPoint (j + 1) (f j) (g j)).filter (inBox k (corner (i + 1))) = [] := by
        rw [List.filter_eq_nil_iff]
        intro o ho
        rw [boxes_apart hm (hlt j List.mem_cons_self) hi (Ne.symm hij) (point_at hm ho)]
        simp
      rw [this, List.nil_append]
      by_cases h : i ∈ l
      · rw [if_pos h, if_pos (List.mem_cons_of_mem _ h)]
      · rw [if_neg h, if_neg (by simp [hij, h])]

/-- What is drawn after the first four things. -/
def matrixRest (k : Ink) (b : Board) : List Op :=
  k.matrixDice b 0 ++
  (k.heap ⟨(160, 670), (500, 70), 30, (0, 0)⟩ 15 t!"blue" (15 - b.position.1.sum) ++
  (k.heap ⟨(160, 10), (25, 111), 0, (0, 0)⟩ 8 t!"red" (cnt b.position.2 24) ++
  ((List.range 24).flatMap (fun i =>
    k.matrixPoint (i + 1) (cnt b.position.1 i) (cnt b.position.2 (23 - i))) ++
  (k.heap ⟨(160, 770), (25, 111), 0, (0, 0)⟩ 8 t!"blue" (cnt b.position.1 24) ++
  (k.heap ⟨(160, 60), (500, 70), 30, (0, 0)⟩ 15 t!"red" (15 - b.position.2.sum) ++
  k.matrixDice b 1)))))

/-- Where dice lie. -/
theorem dice_at {b : Board} {p : Int} {o : Op} (ho : o ∈ k.matrixDice b p) :
    opAt o = (k.scale 735, k.scale 280) ∨ opAt o = (k.scale 690, k.scale 260) ∨ opAt o = (k.scale 105, k.scale 480) ∨
    opAt o = (k.scale 60, k.scale 500) := by
  unfold Ink.matrixDice at ho
  split at ho
  · split at ho <;> simp only [List.mem_cons, List.not_mem_nil, or_false] at ho <;> rcases ho with rfl | rfl <;>
      simp [opAt, Ink.image]
  · simp at ho

/-- Something on a point. -/
theorem onpoint (hm : Magnifies k.scale) {f g : Nat → Int} {o : Op}
    (ho : o ∈ (List.range 24).flatMap fun i => k.matrixPoint (i + 1) (f i) (g i)) :
    k.scale 160 ≤ (opAt o).2 ∧ (opAt o).2 ≤ k.scale 560 + 2 * k.scale 30 := by
  rw [List.mem_flatMap] at ho
  obtain ⟨i, hi, ho⟩ := ho
  have h := point_at hm ho
  unfold inBox at h
  rw [decide_eq_true_eq] at h
  have b1 := corners_within i (List.mem_range.1 hi)
  have h1 := mag_far hm (x := 160) (c := 0) (y := (corner (i + 1)).2) (by omega) (by omega) (by omega)
  have h2 := mag_far hm (x := (corner (i + 1)).2) (c := 0) (y := 560) (by omega) (by omega) (by omega)
  have := mag_zero hm
  omega

theorem filter_none {P : Op → Bool} {l : List Op} (h : ∀ o ∈ l, P o = false) : l.filter P = [] := by
  rw [List.filter_eq_nil_iff]
  intro o ho
  rw [h o ho]
  simp

theorem rest_point (hm : Magnifies k.scale) (b : Board) (i : Nat) (hi : i < 24) :
    (matrixRest k b).filter (inBox k (corner (i + 1))) =
      k.matrixPoint (i + 1) (cnt b.position.1 i) (cnt b.position.2 (23 - i)) := by
  have hz := mag_zero hm
  have w := mag_wide hm
  have hc := corners_within i hi
  have f1 := mag_far hm (x := (corner (i + 1)).1) (c := 100) (y := 690) (by omega) (by omega) (by omega)
  have f2 := mag_far hm (x := (corner (i + 1)).1) (c := 100) (y := 735) (by omega) (by omega) (by omega)
  have f3 := mag_far hm (x := 60) (c := 10) (y := (corner (i + 1)).1) (by omega) (by omega) (by omega)
  have f4 := mag_far hm (x := 105) (c := 10) (y := (corner (i + 1)).1) (by omega) (by omega) (by omega)
  have f5 := mag_far hm (x := (corner (i + 1)).2) (c := 100) (y := 670) (by omega) (by omega) (by omega)
  have f6 := mag_far hm (x := (corner (i + 1)).2) (c := 100) (y := 770) (by omega) (by omega) (by omega)
  have f7 := mag_far hm (x := 60) (c := 10) (y := (corner (i + 1)).2) (by omega) (by omega) (by omega)
  have f8 := mag_far hm (x := 10) (c := 10) (y := (corner (i + 1)).2) (by omega) (by omega) (by omega)
  have f9 := hm.large
  have dice : ∀ p, (k.matrixDice b p).filter (inBox k (corner (i + 1))) = [] := by
    intro p
    refine filter_none fun o ho => ?_
    unfold inBox
    rw [decide_eq_false_iff_not]
    rcases dice_at ho with e | e | e | e <;> rw [e] <;> dsimp only <;> omega
  have row : ∀ x y w h d max n c, k.scale y < k.scale (corner (i + 1)).2 ∨ k.scale (corner (i + 1)).2 + k.scale 100 ≤ k.scale y →
      (k.heap ⟨(x, y), (w, h), d, (0, 0)⟩ max c n).filter (inBox k (corner (i + 1))) = [] := by
    intro x y w h d max n c hy
    refine filter_none fun o ho => ?_
    unfold inBox
    rw [decide_eq_false_iff_not, row_at hz ho]
    omega
  unfold matrixRest
  simp only [List.filter_append, dice]
  rw [row _ _ _ _ _ _ _ _ (.inr f5), row _ _ _ _ _ _ _ _ (.inl (by omega)), row _ _ _ _ _ _ _ _ (.inr f6),
    row _ _ _ _ _ _ _ _ (.inl (by omega)),
    points_filter hm (cnt b.position.1) (fun i => cnt b.position.2 (23 - i)) i hi _ List.nodup_range fun j hj => List.mem_range.1 hj,
    if_pos (List.mem_range.2 hi)]
  simp only [List.nil_append, List.append_nil]

/-- At a height. -/
def atHeight (k : Ink) (y : Int) (o : Op) : Bool := decide ((opAt o).2 = k.scale y)

theorem rest_bars (hm : Magnifies k.scale) (b : Board) :
    (matrixRest k b).filter (atHeight k 10) = k.heap ⟨(160, 10), (25, 111), 0, (0, 0)⟩ 8 t!"red" (cnt b.position.2 24) ∧
    (matrixRest k b).filter (atHeight k 770) = k.heap ⟨(160, 770), (25, 111), 0, (0, 0)⟩ 8 t!"blue" (cnt b.position.1 24) := by
  have hz := mag_zero hm
  have w := mag_wide hm
  have f1 := mag_far hm (x := 10) (c := 10) (y := 60) (by omega) (by omega) (by omega)
  have f2 := mag_far hm (x := 60) (c := 10) (y := 160) (by omega) (by omega) (by omega)
  have f3 := mag_far hm (x := 160) (c := 10) (y := 260) (by omega) (by omega) (by omega)
  have f4 := mag_far hm (x := 260) (c := 10) (y := 280) (by omega) (by omega) (by omega)
  have f5 := mag_far hm (x := 280) (c := 10) (y := 480) (by omega) (by omega) (by omega)
  have f6 := mag_far hm (x := 480) (c := 10) (y := 500) (by omega) (by omega) (by omega)
  have f7 := mag_far hm (x := 500) (c := 10) (y := 560) (by omega) (by omega) (by omega)
  have f8 := mag_far hm (x := 560) (c := 100) (y := 670) (by omega) (by omega) (by omega)
  have f9 := mag_far hm (x := 670) (c := 10) (y := 770) (by omega) (by omega) (by omega)
  have f0 := hm.large
  have f30 := hm.nonneg 30 (by omega)
  have dice : ∀ y, y = 10 ∨ y = 770 → ∀ p, (k.matrixDice b p).filter (atHeight k y) = [] := by
    intro y hy p
    refine filter_none fun o ho => ?_
    unfold atHeight
    rw [decide_eq_false_iff_not]
    rcases hy with rfl | rfl <;> rcases dice_at ho with e | e | e | e <;> rw [e] <;> dsimp only <;> omega
  have row : ∀ x y w h d max n c z, k.scale y ≠ k.scale z →
      (k.heap ⟨(x, y), (w, h), d, (0, 0)⟩ max c n).filter (atHeight k z) = [] := by
    intro x y w h d max n c z hy
    refine filter_none fun o ho => ?_
    unfold atHeight
    rw [decide_eq_false_iff_not, row_at hz ho]
    exact hy
  have own : ∀ x y w h d max n c,
      (k.heap ⟨(x, y), (w, h), d, (0, 0)⟩ max c n).filter (atHeight k y) = k.heap ⟨(x, y), (w, h), d, (0, 0)⟩ max c n := by
    intro x y w h d max n c
    rw [List.filter_eq_self]
    intro o ho
    unfold atHeight
    rw [decide_eq_true_eq, row_at hz ho]
  have pts : ∀ y, y = 10 ∨ y = 770 → ∀ f g : Nat → Int,
      ((List.range 24).flatMap fun i => k.matrixPoint (i + 1) (f i) (g i)).filter (atHeight k y) = [] := by
    intro y hy f g
    refine filter_none fun o ho => ?_
    have := onpoint hm ho
    unfold atHeight
    rw [decide_eq_false_iff_not]
    rcases hy with rfl | rfl <;> omega
  unfold matrixRest
  constructor
  · simp only [List.filter_append, dice 10 (.inl rfl), pts 10 (.inl rfl) (cnt b.position.1) (fun i => cnt b.position.2 (23 - i)), own]
    rw [row _ 670 _ _ _ _ _ _ _ (by omega), row _ 770 _ _ _ _ _ _ _ (by omega), row _ 60 _ _ _ _ _ _ _ (by omega)]
    simp only [List.nil_append, List.append_nil]
  · simp only [List.filter_append, dice 770 (.inr rfl), pts 770 (.inr rfl) (cnt b.position.1) (fun i => cnt b.position.2 (23 - i)), own]
    rw [row _ 670 _ _ _ _ _ _ _ (by omega), row _ 10 _ _ _ _ _ _ _ (by omega), row _ 60 _ _ _ _ _ _ _ (by omega)]
    simp only [List.nil_append, List.append_nil]

/-- An image of a die. -/
def isDie : Op → Bool
  | .image src _ _ _ => t!"bglib/image/resource/matrix/dice_".isPrefixOf src
  | _ => false

theorem heap_not_die {s : Spot} {max n : Int} {c : Text} : ∀ o ∈ k.heap s max c n, isDie o = false := by
  intro o ho
  unfold Ink.heap at ho
  rw [List.mem_append, List.mem_map] at ho
  rcases ho with ⟨j, -, rfl⟩ | ho
  · rfl
  · split at ho
    · rw [List.mem_singleton] at ho; subst ho; rfl
    · simp at ho

theorem rest_dice (b : Board) : (matrixRest k b).filter isDie = k.matrixDice b 0 ++ k.matrixDice b 1 := by
  have own : ∀ p, (k.matrixDice b p).filter isDie = k.matrixDice b p := by
    intro p
    rw [List.filter_eq_self]
    intro o ho
    unfold Ink.matrixDice at ho
    split at ho
    · split at ho <;> simp only [List.mem_cons, List.not_mem_nil, or_false] at ho <;> rcases ho with rfl | rfl <;> rfl
    · simp at ho
  have pts : ∀ f g : Nat → Int, ((List.range 24).flatMap fun i => k.matrixPoint (i + 1) (f i) (g i)).filter isDie = [] := by
    intro f g
    refine filter_none fun o ho => ?_
    rw [List.mem_flatMap] at ho
    obtain ⟨i, -, ho⟩ := ho
    unfold Ink.matrixPoint at ho
    split at ho <;> rw [List.mem_append] at ho <;> rcases ho with ho | ho <;> exact heap_not_die o ho
  unfold matrixRest
  simp only [List.filter_append, own, pts (cnt b.position.1) (fun i => cnt b.position.2 (23 - i)), filter_none heap_not_die,
    List.nil_append]

theorem die_file_inj {c : Text} {n m : Int} (e : matrix (t!"dice_" ++ (c ++ (t!"_" ++ pyStr n))) =
    matrix (t!"dice_" ++ (c ++ (t!"_" ++ pyStr m)))) : n = m := by
  unfold matrix at e
  have e := List.append_cancel_right (List.append_cancel_left e)
  exact pyStr_inj (List.append_cancel_left (List.append_cancel_left (List.append_cancel_left e)))

theorem dice_inj {b c : Board} (hb : TurnsOk b) (hc : TurnsOk c)
    (h : k.matrixDice b 0 ++ k.matrixDice b 1 = k.matrixDice c 0 ++ k.matrixDice c 1) :
    b.rolled = c.rolled ∧ (b.rolled ≠ (0, 0) → b.onAction = c.onAction) := by
  have none : ∀ d : Board, d.rolled = (0, 0) → k.matrixDice d 0 ++ k.matrixDice d 1 = [] := by
    intro d hd
    unfold Ink.matrixDice
    rw [if_neg (fun x => x.1 hd), if_neg (fun x => x.1 hd)]
    rfl
  have you : ∀ d : Board, d.rolled ≠ (0, 0) → d.onAction = 0 → k.matrixDice d 0 ++ k.matrixDice d 1 =
      [k.image 735 280 30 30 false (matrix (t!"dice_" ++ (t!"blue" ++ (t!"_" ++ pyStr d.rolled.1)))),
       k.image 690 260 30 30 false (matrix (t!"dice_" ++ (t!"blue" ++ (t!"_" ++ pyStr d.rolled.2))))] := by
    intro d hd ha
    rw [show k.matrixDice d 1 = [] from if_neg fun x => by rw [ha] at x; exact absurd x.2 (by decide), List.append_nil]
    exact if_pos ⟨hd, ha⟩
  have him : ∀ d : Board, d.rolled ≠ (0, 0) → d.onAction = 1 → k.matrixDice d 0 ++ k.matrixDice d 1 =
      [k.image 105 480 30 30 false (matrix (t!"dice_" ++ (t!"red" ++ (t!"_" ++ pyStr d.rolled.1)))),
       k.image 60 500 30 30 false (matrix (t!"dice_" ++ (t!"red" ++ (t!"_" ++ pyStr d.rolled.2))))] := by
    intro d hd ha
    rw [show k.matrixDice d 0 = [] from if_neg fun x => by rw [ha] at x; exact absurd x.2 (by decide), List.nil_append]
    exact if_pos ⟨hd, ha⟩
  by_cases rb : b.rolled = (0, 0)
  · by_cases rc : c.rolled = (0, 0)
    · exact ⟨rb.trans rc.symm, fun x => absurd rb x⟩
    · rw [none b rb] at h
      rcases hc.1 with hc | hc
      · rw [you c rc hc] at h; simp at h
      · rw [him c rc hc] at h; simp at h
  · by_cases rc : c.rolled = (0, 0)
    · rw [none c rc] at h
      rcases hb.1 with hb | hb
      · rw [you b rb hb] at h; simp at h
      · rw [him b rb hb] at h; simp at h
    · rcases hb.1 with hb | hb <;> rcases hc.1 with hc | hc
      · rw [you b rb hb, you c rc hc] at h
        simp only [List.cons.injEq, Ink.image, Op.image.injEq, and_true] at h
        exact ⟨Prod.ext (die_file_inj (c := t!"blue") h.1) (die_file_inj (c := t!"blue") h.2), fun _ => hb.trans hc.symm⟩
      · rw [you b rb hb, him c rc hc] at h
        simp only [List.cons.injEq, Ink.image, Op.image.injEq, and_true] at h
        exact absurd h.1.1 (by simp [matrix])
      · rw [him b rb hb, you c rc hc] at h
        simp only [List.cons.injEq, Ink.image, Op.image.injEq, and_true] at h
        exact absurd h.1.1 (by simp [matrix])
      · rw [him b rb hb, him c rc hc] at h
        simp only [List.cons.injEq, Ink.image, Op.image.injEq, and_true] at h
        exact ⟨Prod.ext (die_file_inj (c := t!"red") h.1) (die_file_inj (c := t!"red") h.2), fun _ => hb.trans hc.symm⟩

/-- What the picture says. -/
theorem matrix_inj {b c : Board} (hm : Magnifies k.scale) (sb : Sensible b) (sc : Sensible c) (nb : NoDebt b) (nc : NoDebt c)
    (h : k.matrixPicture b = k.matrixPicture c) : MatrixSight b c := by
  have e : ∀ d : Board, k.matrixPicture d =
    (if (actionWords d).1 = 0 then k.image 830 670 100 100 false (matrix t!"ind_blue_r")
     else k.image 830 30 100 100 false (matrix t!"ind_red_l")) ::
     k.text 800 500 200 300 (pyStr d.score.1) matrixFont t!"#3cb7ff" ::
     k.text 800 0 200 300 (pyStr d.score.2) matrixFont t!"#fd4993" ::
     k.image 0 0 800 800 false (matrix t!"position") :: matrixRest k d := by
    intro d
    simp only [Ink.matrixPicture, matrixRest, List.append_assoc, List.cons_append, List.nil_append]
  rw [e b, e c] at h
  simp only [List.cons.injEq, Ink.text, Op.text.injEq, true_and, and_true] at h
  obtain ⟨hwho, h1, h2, h⟩ := h
  have hwho : (actionWords b).1 = (actionWords c).1 := by
    rcases action_who b sb with x | x <;> rcases action_who c sc with y | y <;> rw [x, y] at hwho ⊢
    · exact absurd hwho (by simp [Ink.image, matrix, YOU, HIM])
    · exact absurd hwho (by simp [Ink.image, matrix, YOU, HIM])
  obtain ⟨d1, d2⟩ := dice_inj sb.turns sc.turns (by rw [← rest_dice, ← rest_dice, h])
  have g2 := heap_inj (max := 8) (cnt_nonneg nb.2 24) (cnt_nonneg nc.2 24) (by omega) (by rw [← (rest_bars hm b).1, ← (rest_bars hm c).1, h])
  have g1 := heap_inj (max := 8) (cnt_nonneg nb.1 24) (cnt_nonneg nc.1 24) (by omega) (by rw [← (rest_bars hm b).2, ← (rest_bars hm c).2, h])
  have hp : ∀ i, i < 24 → cnt b.position.1 i = cnt c.position.1 i ∧ cnt b.position.2 (23 - i) = cnt c.position.2 (23 - i) := by
    intro i hi
    exact matrix_point_inj (cnt_nonneg nb.1 _) (cnt_nonneg nb.2 _) (cnt_nonneg nc.1 _) (cnt_nonneg nc.2 _)
      (by rw [← rest_point hm b i hi, ← rest_point hm c i hi, h])
  refine ⟨?_, Prod.ext (pyStr_inj h1) (pyStr_inj h2), d1, d2, hwho⟩
  refine Prod.ext (cnt_ext sb.you sc.you ?_) (cnt_ext sb.him sc.him ?_)
  · intro i hi
    by_cases h24 : i = 24
    · rw [h24]; exact g1
    · exact (hp i (by omega)).1
  · intro i hi
    by_cases h24 : i = 24
    · rw [h24]; exact g2
    · have := (hp (23 - i) (by omega)).2
      simpa only [show 23 - (23 - i) = i by omega] using this

/-- Multiplying by a fraction and cutting off what is behind the point. -/
theorem mag_fraction (p q : Int) (hq : 0 < q) (h : 3 * q ≤ 5 * p) : Magnifies fun x => (x * p).tdiv q := by
  have hp : 0 ≤ p := by omega
  have ed : ∀ x, 0 ≤ x → (x * p).tdiv q = x * p / q := fun x hx => Int.tdiv_eq_ediv_of_nonneg (Int.mul_nonneg hx hp)
  refine ⟨fun x hx => ?_, fun x => ?_, fun x y hx hy => ?_, ?_⟩
  · exact Int.tdiv_nonneg (Int.mul_nonneg hx hp) (Int.le_of_lt hq)
  · simp only [Int.neg_mul, Int.neg_tdiv]
  · rw [ed x hx, ed y hy, ed (x + y) (by omega), Int.add_mul]
    generalize x * p = a
    generalize y * p = b
    have a1 := Int.mul_ediv_add_emod a q
    have a2 := Int.emod_nonneg a (by omega : q ≠ 0)
    have a3 := Int.emod_lt_of_pos a hq
    have b1 := Int.mul_ediv_add_emod b q
    have b2 := Int.emod_nonneg b (by omega : q ≠ 0)
    have b3 := Int.emod_lt_of_pos b hq
    generalize a / q = u at *
    generalize b / q = v at *
    constructor
    · rw [Int.le_ediv_iff_mul_le hq, Int.add_mul, Int.mul_comm u, Int.mul_comm v]
      omega
    · refine Int.le_of_lt_add_one ?_
      rw [Int.ediv_lt_iff_lt_mul hq, Int.add_mul, Int.add_mul, Int.add_mul, Int.mul_comm u, Int.mul_comm v]
      omega
  · rw [ed 10 (by omega), Int.le_ediv_iff_mul_le hq]
    omega

end Bglib
