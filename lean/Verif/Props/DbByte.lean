import Verif.Model.DbByte
import Verif.Spec.BoardView
import Verif.Props.Xgid
import Mathlib.Tactic.Ring
import Mathlib.Analysis.Real.Sqrt
import Mathlib.Tactic.Linarith
/-
C10, C11: the 26-byte database expression.
-/
namespace Bglib
open Spec

theorem signed_roundtrip (n : Int) (h1 : -128 ≤ n) (h2 : n ≤ 127) :
    ∃ c, signedChr n = .ok c ∧ signedOrd c = n ∧ c < 256 := by
  unfold signedChr
  rw [if_neg (by omega), if_neg (by omega)]
  by_cases h : n < 0
  · rw [if_pos h]
    refine ⟨_, rfl, ?_, by omega⟩
    unfold signedOrd
    rw [if_pos (by omega)]; omega
  · rw [if_neg h]
    refine ⟨_, rfl, ?_, by omega⟩
    unfold signedOrd
    rw [if_neg (by omega)]; omega

theorem mapM_ok {α β : Type} (f : α → Py β) (g : α → β) (l : List α) (h : ∀ x ∈ l, f x = .ok (g x)) :
    l.mapM f = .ok (l.map g) := by
  induction l with
  | nil => rfl
  | cons x xs ih =>
    rw [List.mapM_cons, h x (by simp), ih (fun y hy => h y (List.mem_cons_of_mem _ hy))]
    rfl

/-- The signed number stored at place `i` of the expression. -/
def dbDiff (a b : List Int) (i : Nat) : Int := (0 :: a).getD i 0 - (0 :: b).getD (25 - i) 0

/-- A byte holding a number in -128..127. -/
def dbByte (n : Int) : Nat := (if n < 0 then 256 + n else n).toNat

theorem signedChr_eq (n : Int) (h1 : -128 ≤ n) (h2 : n ≤ 127) : signedChr n = .ok (dbByte n) := by
  unfold signedChr dbByte
  rw [if_neg (by omega), if_neg (by omega)]
  split <;> rfl

theorem signedOrd_dbByte (n : Int) (h1 : -128 ≤ n) (h2 : n ≤ 127) : signedOrd (dbByte n) = n := by
  obtain ⟨c, hc, ho, _⟩ := signed_roundtrip n h1 h2
  rw [signedChr_eq n h1 h2] at hc
  injection hc with hc
  rw [hc, ho]

/-- Positions in which no point is held by both sides and no count exceeds 127. -/
structure DbOk (a b : List Int) : Prop where
  row1 : Row a
  row2 : Row b
  max1 : ∀ i, cnt a i ≤ 127
  max2 : ∀ i, cnt b i ≤ 127
  apart : ∀ i < 24, cnt a i = 0 ∨ cnt b (23 - i) = 0

theorem dbDiff_bounds (a b : List Int) (h : DbOk a b) (i : Nat) :
    -128 ≤ dbDiff a b i ∧ dbDiff a b i ≤ 127 := by
  have key : ∀ (r : List Int), (∀ i, 0 ≤ cnt r i) → (∀ i, cnt r i ≤ 127) → ∀ j,
      0 ≤ (0 :: r).getD j 0 ∧ (0 :: r).getD j 0 ≤ 127 := by
    intro r h1 h2 j
    cases j with
    | zero => simp
    | succ j => exact ⟨h1 j, h2 j⟩
  have h1 := key a h.row1.2 h.max1 i
  have h2 := key b h.row2.2 h.max2 (25 - i)
  unfold dbDiff
  omega

theorem dbEncode_eq (a b : List Int) (h : DbOk a b) :
    dbEncode (a, b) = .ok ((List.range 26).map fun i => dbByte (dbDiff a b i)) := by
  unfold dbEncode
  rw [if_neg (by simp [h.row1.1, h.row2.1])]
  apply mapM_ok
  intro i _
  exact signedChr_eq _ (dbDiff_bounds a b h i).1 (dbDiff_bounds a b h i).2

/-- **C10** The byte expression of a position decodes to the position. -/
theorem C10_roundtrip (a b : List Int) (h : DbOk a b) :
    ∃ s, dbEncode (a, b) = .ok s ∧ s.length = 26 ∧ (∀ c ∈ s, c < 256) ∧ dbDecode s = .ok (a, b) := by
  refine ⟨_, dbEncode_eq a b h, by simp, ?_, ?_⟩
  · intro c hc
    obtain ⟨i, _, rfl⟩ := List.mem_map.1 hc
    have := dbDiff_bounds a b h i
    unfold dbByte; split <;> omega
  · unfold dbDecode
    rw [if_neg (by simp)]
    simp only [Except.ok.injEq, Prod.mk.injEq]
    have hab : ∀ i < 25, ∀ j, i + j = 24 →
        (dbDiff a b (i + 1) > 0 → dbDiff a b (i + 1) = cnt a i) ∧
        (¬ dbDiff a b (i + 1) > 0 → 0 = cnt a i) ∧
        (dbDiff a b j < 0 → - dbDiff a b j = cnt b i) ∧
        (¬ dbDiff a b j < 0 → 0 = cnt b i) := by
      intro i hi j hj
      have r1 := h.row1.2 i
      have r2 := h.row2.2 i
      have e1 : dbDiff a b (i + 1) = cnt a i - (if j = 0 then 0 else cnt b (j - 1)) := by
        unfold dbDiff
        rw [show 25 - (i + 1) = j by omega]
        cases j <;> rfl
      have e2 : dbDiff a b j = (if j = 0 then 0 else cnt a (j - 1)) - cnt b i := by
        unfold dbDiff
        rw [show 25 - j = i + 1 by omega]
        cases j <;> rfl
      rw [e1, e2]
      by_cases hj0 : j = 0
      · simp only [hj0, if_true]; omega
      · simp only [hj0, if_false]
        have q1 := h.row1.2 (j - 1)
        have q2 := h.row2.2 (j - 1)
        have p1 := h.apart i (by omega)
        have p2 := h.apart (j - 1) (by omega)
        rw [show 23 - i = j - 1 by omega] at p1
        rw [show 23 - (j - 1) = i by omega] at p2
        omega
    constructor
    · rw [List.map_map, ← List.map_drop, show (List.range 26).drop 1 = (List.range 25).map (· + 1) by decide,
        List.map_map]
      apply row_eq_range _ h.row1.1
      intro i hi
      have hb := dbDiff_bounds a b h (i + 1)
      simp only [Function.comp, signedOrd_dbByte _ hb.1 hb.2]
      have := hab i hi (24 - i) (by omega)
      split
      · exact this.1 (by assumption)
      · exact this.2.1 (by assumption)
    · rw [← List.map_reverse, List.map_map,
        show (List.range 26).reverse = (List.range 26).map (25 - ·) by decide, List.map_map, ← List.map_drop,
        show (List.range 26).drop 1 = (List.range 25).map (· + 1) by decide, List.map_map]
      apply row_eq_range _ h.row2.1
      intro i hi
      simp only [Function.comp]
      rw [show 25 - (i + 1) = 24 - i by omega]
      have hb := dbDiff_bounds a b h (24 - i)
      rw [signedOrd_dbByte _ hb.1 hb.2]
      have := hab i hi (24 - i) (by omega)
      split
      · exact this.2.2.1 (by assumption)
      · exact this.2.2.2 (by assumption)

theorem dbOk_of (a b : List Int) (h1 : a.length = 25) (h2 : b.length = 25) (h3 : ∀ x ∈ a, 0 ≤ x)
    (h4 : ∀ x ∈ b, 0 ≤ x) (h5 : ∀ x ∈ a, x ≤ 127) (h6 : ∀ x ∈ b, x ≤ 127)
    (h7 : ∀ i < 24, cnt a i = 0 ∨ cnt b (23 - i) = 0) : DbOk a b :=
  ⟨row_of_mem h1 h3, row_of_mem h2 h4, cnt_le_of_mem (by decide) h5, cnt_le_of_mem (by decide) h6, h7⟩

example : DbOk initialRow initialRow :=
  dbOk_of _ _ (by decide) (by decide) (by decide) (by decide) (by decide) (by decide) (by decide)

/-- **C10** for whole boards: `DatabaseBytesExpression(board).tomodel()` is the board. -/
theorem C10_board (b : Board) (ht : b.onAction = 0 ∨ b.onAction = 1)
    (h : DbOk b.position.1 b.position.2) (h' : DbOk b.position.2 b.position.1) :
    ∃ e, dbExpr b = .ok e ∧ e.toModel = .ok b := by
  rcases ht with h0 | h0
  · obtain ⟨s, hs, _, _, hd⟩ := C10_roundtrip _ _ h
    have hs' : dbEncode b.position = .ok s := hs
    refine ⟨⟨s, b⟩, ?_, ?_⟩
    · unfold dbExpr
      rw [if_pos (by rw [h0]; decide), hs']; rfl
    · unfold DbExpr.toModel
      rw [if_pos (by rw [h0]; decide), hd]; rfl
  · obtain ⟨s, hs, _, _, hd⟩ := C10_roundtrip _ _ h'
    refine ⟨⟨s, b⟩, ?_, ?_⟩
    · unfold dbExpr
      rw [if_neg (by rw [h0]; decide), if_pos (by rw [h0]; decide), hs]; rfl
    · unfold DbExpr.toModel
      rw [if_neg (by simp only [h0]; decide), if_pos (by simp only [h0]; decide), hd]; rfl

example : DbOk exXgBoard.position.1 exXgBoard.position.2 ∧ DbOk exXgBoard.position.2 exXgBoard.position.1 :=
  ⟨dbOk_of _ _ (by decide) (by decide) (by decide) (by decide) (by decide) (by decide) (by decide),
   dbOk_of _ _ (by decide) (by decide) (by decide) (by decide) (by decide) (by decide) (by decide)⟩

/-- **C10** The condition is needed: a point held by both sides is lost. -/
theorem C10_shared_lost : ∃ a b s, Row a ∧ Row b ∧ dbEncode (a, b) = .ok s ∧ dbDecode s ≠ .ok (a, b) :=
  ⟨1 :: List.replicate 24 0, List.replicate 23 0 ++ [1, 0], List.replicate 26 0,
    row_of_mem (by decide) (by decide), row_of_mem (by decide) (by decide), by decide, by decide⟩

/-! ### C11 -/

/-- Sum of squared differences. -/
def sqDist : List Nat → List Nat → Int
  | x :: xs, y :: ys => (signedOrd x - signedOrd y) ^ 2 + sqDist xs ys
  | _, _ => 0

theorem foldl_add (l : List Int) : ∀ a, l.foldl (· + ·) a = a + l.foldl (· + ·) 0 := by
  induction l with
  | nil => intro a; simp
  | cons x xs ih => intro a; rw [List.foldl_cons, List.foldl_cons, ih (a + x), ih (0 + x)]; omega

theorem dbDistance_eq (xs ys : List Nat) : dbDistance xs ys = sqDist xs ys := by
  unfold dbDistance
  induction xs generalizing ys with
  | nil => rfl
  | cons x xs ih =>
    cases ys with
    | nil => rfl
    | cons y ys =>
      rw [List.zip_cons_cons, List.map_cons, List.foldl_cons, foldl_add, ih ys, sqDist]
      simp only []
      omega

theorem sqDist_nonneg (xs ys : List Nat) : 0 ≤ sqDist xs ys := by
  fun_induction sqDist xs ys with
  | case1 x xs y ys ih => exact add_nonneg (sq_nonneg _) ih
  | case2 => omega

theorem signedOrd_inj (x y : Nat) (hx : x < 256) (hy : y < 256) (h : signedOrd x = signedOrd y) : x = y := by
  unfold signedOrd at h
  split at h <;> split at h <;> omega

/-- **C11** (what holds, 1) The distance is never negative, symmetric, and zero exactly on equal
expressions. -/
theorem C11_zero_symm_partial (xs ys : List Nat) (hl : xs.length = ys.length) (hx : ∀ c ∈ xs, c < 256)
    (hy : ∀ c ∈ ys, c < 256) :
    0 ≤ dbDistance xs ys ∧ dbDistance xs ys = dbDistance ys xs ∧ (dbDistance xs ys = 0 ↔ xs = ys) := by
  simp only [dbDistance_eq]
  refine ⟨sqDist_nonneg _ _, ?_, ?_⟩
  · clear hx hy hl
    induction xs generalizing ys with
    | nil => cases ys <;> rfl
    | cons x xs ih =>
      cases ys with
      | nil => rfl
      | cons y ys => rw [sqDist, sqDist, ih ys]; ring
  · induction xs generalizing ys with
    | nil => cases ys with
      | nil => simp [sqDist]
      | cons y ys => simp at hl
    | cons x xs ih =>
      cases ys with
      | nil => simp at hl
      | cons y ys =>
        rw [sqDist]
        have h1 := sqDist_nonneg xs ys
        have h2 : 0 ≤ (signedOrd x - signedOrd y) ^ 2 := sq_nonneg _
        have ih := ih ys (by simpa using hl) (fun c hc => hx c (List.mem_cons_of_mem _ hc))
          (fun c hc => hy c (List.mem_cons_of_mem _ hc))
        constructor
        · intro h
          have hz : (signedOrd x - signedOrd y) ^ 2 = 0 := by omega
          have hz' : signedOrd x - signedOrd y = 0 := by
            exact pow_eq_zero_iff (two_ne_zero) |>.1 hz
          rw [signedOrd_inj x y (hx x (by simp)) (hy y (by simp)) (by omega), ih.1 (by omega)]
        · intro h
          injection h with e1 e2
          rw [e1, ih.2 e2]; simp

/-- Inner product of the differences `x - y` and `y - z`. -/
def dotDist : List Nat → List Nat → List Nat → Int
  | x :: xs, y :: ys, z :: zs =>
    (signedOrd x - signedOrd y) * (signedOrd y - signedOrd z) + dotDist xs ys zs
  | _, _, _ => 0

theorem cauchy (xs : List Nat) : ∀ ys zs, dotDist xs ys zs ^ 2 ≤ sqDist xs ys * sqDist ys zs := by
  induction xs with
  | nil => intro ys zs; simp [dotDist, sqDist]
  | cons x xs ih =>
    intro ys zs
    cases ys with
    | nil => simp [dotDist, sqDist]
    | cons y ys =>
      cases zs with
      | nil => simp [dotDist, sqDist]
      | cons z zs =>
        simp only [dotDist, sqDist]
        have h := ih ys zs
        have hA := sqDist_nonneg xs ys
        have hB := sqDist_nonneg ys zs
        generalize dotDist xs ys zs = C at *
        generalize sqDist xs ys = A at *
        generalize sqDist ys zs = B at *
        generalize signedOrd x - signedOrd y = a
        generalize signedOrd y - signedOrd z = b
        have key : 2 * C * (a * b) ≤ A * b ^ 2 + B * a ^ 2 := by
          have hR : 0 ≤ A * b ^ 2 + B * a ^ 2 :=
            add_nonneg (mul_nonneg hA (sq_nonneg _)) (mul_nonneg hB (sq_nonneg _))
          refine le_of_abs_le (abs_le_of_sq_le_sq ?_ hR)
          have h1 : (2 * C * (a * b)) ^ 2 = 4 * (a * b) ^ 2 * C ^ 2 := by ring
          have h2 : 4 * (a * b) ^ 2 * C ^ 2 ≤ 4 * (a * b) ^ 2 * (A * B) :=
            mul_le_mul_of_nonneg_left h (by positivity)
          have h3 := sq_nonneg (A * b ^ 2 - B * a ^ 2)
          nlinarith
        nlinarith

theorem sqDist_add (xs : List Nat) : ∀ ys zs, xs.length = ys.length → ys.length = zs.length →
    sqDist xs zs = sqDist xs ys + sqDist ys zs + 2 * dotDist xs ys zs := by
  induction xs with
  | nil =>
    intro ys zs h1 h2
    cases ys with
    | nil => cases zs <;> simp [sqDist, dotDist]
    | cons y ys => simp at h1
  | cons x xs ih =>
    intro ys zs h1 h2
    cases ys with
    | nil => simp at h1
    | cons y ys =>
      cases zs with
      | nil => simp at h2
      | cons z zs =>
        simp only [sqDist, dotDist]
        rw [ih ys zs (by simpa using h1) (by simpa using h2)]
        ring

/-- **C11** (what holds, 2) The triangle inequality holds for the square root of the distance. -/
theorem C11_triangle_partial (xs ys zs : List Nat) (h1 : xs.length = ys.length) (h2 : ys.length = zs.length) :
    Real.sqrt (dbDistance xs zs) ≤ Real.sqrt (dbDistance xs ys) + Real.sqrt (dbDistance ys zs) := by
  simp only [dbDistance_eq]
  rw [sqDist_add xs ys zs h1 h2]
  have hc := cauchy xs ys zs
  have hA := sqDist_nonneg xs ys
  have hB := sqDist_nonneg ys zs
  generalize dotDist xs ys zs = C at *
  generalize sqDist xs ys = A at *
  generalize sqDist ys zs = B at *
  have hA' : (0 : ℝ) ≤ A := by exact_mod_cast hA
  have hB' : (0 : ℝ) ≤ B := by exact_mod_cast hB
  have hc' : (C : ℝ) ^ 2 ≤ A * B := by exact_mod_cast hc
  apply Real.sqrt_le_iff.2
  refine ⟨by positivity, ?_⟩
  have e1 := Real.sq_sqrt hA'
  have e2 := Real.sq_sqrt hB'
  have e3 : (C : ℝ) ≤ Real.sqrt A * Real.sqrt B := by
    rw [← Real.sqrt_mul hA']
    exact Real.le_sqrt_of_sq_le hc'
  push_cast
  nlinarith

example : ([0, 255, 2] : List Nat).length = ([0, 7, 2] : List Nat).length := rfl

/-- **C11** is false as stated: going through the middle is shorter. -/
theorem C11_triangle_false : ∃ xs ys zs : List Nat, xs.length = 26 ∧ ys.length = 26 ∧ zs.length = 26 ∧
    dbDistance xs ys + dbDistance ys zs < dbDistance xs zs :=
  ⟨0 :: List.replicate 25 0, 1 :: List.replicate 25 0, 2 :: List.replicate 25 0, by decide⟩

end Bglib
