import Verif.Lemmas.BearoffTests
import Verif.Spec.BearoffDb
/-
The tests of the numbering of bearoff positions: C100.
-/
namespace Bglib
open BearoffTests Spec.BearoffTests

/-! ### C100: tests written from a table ask what the table says -/

/-- Every table is read as it is written: each row with all six points of both sides. -/
theorem C100_read (rs : List Row) (h : ∀ r ∈ rs, r.2.1 ≠ [] ∧ r.2.2 ≠ []) :
    dat2case (table rs) = .ok (rs.map fun r => toCase (complete r)) := read_table rs h

/-- Non-vacuity: two rows. -/
example : ∀ r ∈ ([(5, [0, 1], [0, 0]), (65, [1, 1], [0])] : List Row), r.2.1 ≠ [] ∧ r.2.2 ≠ [] := by decide

/-- However wide the gaps are. -/
theorem C100_spaced (rs : List (Row × Gaps)) (h : ∀ r ∈ rs, r.1.2.1 ≠ [] ∧ r.1.2.2 ≠ [] ∧ r.2.Fit) :
    dat2case (spacedTable rs) = .ok (rs.map fun r => toCase (complete r.1)) := read_spaced rs h

/-- Non-vacuity: the row of the authors' table with a blank at its end. -/
example : spacedLine ((25, [0, 0, 0, 0], [0, 0, 0, 1]), ⟨[], t!" ", t!" ", t!" "⟩) = t!"25 0,0,0,0 0,0,0,1 " ∧
    (⟨[], t!" ", t!" ", t!" "⟩ : Gaps).Fit := by
  refine ⟨by decide +kernel, ?_⟩
  unfold Gaps.Fit
  decide

/-- The file that is written asks for every row, in their order, that its pair of positions has its number. -/
theorem C100_written (rs : List Row) : (asked (output (rs.map toCase))).map (·.2) = rs := by
  rw [read_output, List.map_map]
  exact List.map_id rs

/-- If no pair of positions comes twice and no point has ten chequers, all the tests are run. -/
theorem C100_run_partial (rs : List Row) (hs : ∀ r ∈ rs, Small r) (hp : rs.Pairwise fun r s => r.2 ≠ s.2) :
    (run (asked (output (rs.map toCase)))).map (·.2) = rs := by
  rw [run_all]
  · exact C100_written rs
  · rw [read_output, List.pairwise_map]
    have key : ∀ (r s : Row), r ∈ rs → s ∈ rs → r.2 ≠ s.2 → testName (toCase r) ≠ testName (toCase s) :=
      fun r s h1 h2 h3 e => h3 (name_inj (hs r h1) (hs s h2) e)
    exact List.Pairwise.imp_of_mem (fun h1 h2 h3 => key _ _ h1 h2 h3) hp

/-- Non-vacuity: the authors' table. -/
example : (∀ r ∈ Spec.triceTable, Small r) ∧ Spec.triceTable.Pairwise fun r s => r.2 ≠ s.2 := by
  constructor
  · intro r hr
    have : ∀ r ∈ Spec.triceTable, (decide (r.2.1.length = 6) && decide (r.2.2.length = 6) && r.2.1.all (· ≤ 9) && r.2.2.all (· ≤ 9)) = true := by decide
    have := this r hr
    simp only [Bool.and_eq_true, decide_eq_true_eq, List.all_eq_true] at this
    exact ⟨this.1.1.1, this.1.1.2, this.1.2, this.2⟩
  · decide

/-- The program run on the authors' table writes and runs one test for each of its 29 rows. -/
theorem C100_authors : main dat = .ok (output (Spec.triceTable.map toCase)) ∧
    (run (asked (output (Spec.triceTable.map toCase)))).map (·.2) = Spec.triceTable ∧ Spec.triceTable.length = 29 := by
  refine ⟨?_, C100_run_partial _ ?_ (by decide), rfl⟩
  · have h1 : dat2case dat = .ok (Spec.triceTable.map toCase) := by decide +kernel
    have h2 : check (Spec.triceTable.map toCase) selftest = .ok () := by decide +kernel
    simp only [main, h1, bind, Except.bind, h2]
    rfl
  · intro r hr
    have : ∀ r ∈ Spec.triceTable, (decide (r.2.1.length = 6) && decide (r.2.2.length = 6) && r.2.1.all (· ≤ 9) && r.2.2.all (· ≤ 9)) = true := by decide
    have := this r hr
    simp only [Bool.and_eq_true, decide_eq_true_eq, List.all_eq_true] at this
    exact ⟨this.1.1.1, this.1.1.2, this.1.2, this.2⟩

/-- The file is written exactly if the table has all sixteen known rows and none of them is followed by another with its number. -/
theorem C100_checked (s out : Text) : main s = .ok out ↔
    ∃ cs, dat2case s = .ok cs ∧ (∀ c ∈ selftest, LastOf cs c) ∧ out = output cs := by
  rw [main]
  cases h : dat2case s with
  | error e => simp [bind, Except.bind]
  | ok cs =>
    simp only [bind, Except.bind, pure, Except.pure]
    cases hc : check cs selftest with
    | error e =>
      constructor
      · intro h; simp at h
      · rintro ⟨cs', h1, h2, _⟩
        have := Except.ok.inj h1
        subst this
        rw [(check_iff cs selftest).2 h2] at hc
        simp at hc
    | ok u =>
      have := (check_iff cs selftest).1 hc
      constructor
      · intro h; exact ⟨cs, rfl, this, (Except.ok.inj h).symm⟩
      · rintro ⟨cs', h1, _, h3⟩
        have := Except.ok.inj h1
        subst this
        rw [h3]

/-- The known rows are sixteen rows of the authors' table. -/
theorem C100_known : selftest.length = 16 ∧ (selftest.map (·.1)).Nodup ∧ ∀ c ∈ selftest, c ∈ Spec.triceTable.map toCase := by decide

/-- Non-vacuity: `C100_authors` is one side of it; a table without the first row is refused. -/
example : ¬ ∃ out, main t!"2 1 0\n" = .ok out := by
  rintro ⟨out, h⟩
  have : main t!"2 1 0\n" = .error .keyError := by decide +kernel
  rw [this] at h
  simp at h

/-- False for points with ten chequers or more: the names of tests run the numbers together, so two rows may give the same
name, and of the two tests the first is lost. -/
theorem C100_false_names : ∃ r s : Row, r.2 ≠ s.2 ∧ (∀ x ∈ [r, s], x.2.1.length = 6 ∧ x.2.2.length = 6 ∧ x.2.1.sum ≤ 15 ∧ x.2.2.sum ≤ 15) ∧
    testName (toCase r) = testName (toCase s) ∧ (run (asked (output ([r, s].map toCase)))).map (·.2) = [s] := by
  refine ⟨(1, [0,0,0,0,0,1], [10,0,0,0,0,0]), (2, [0,0,0,0,0,11], [0,0,0,0,0,0]), by decide, by decide, by decide, ?_⟩
  rw [read_output]
  decide +kernel

/-- A table is read or refused with a `ValueError`, and refused if a line has not exactly three parts. -/
theorem C100_refused (s : Text) : (dat2case s = .error .valueError ∨ ∃ cs, dat2case s = .ok cs ∧ cs.length = (Doc.splitLines [] s).length) ∧
    ((∃ l ∈ Doc.splitLines [] s, (splitBlanks [] l).length ≠ 3) → dat2case s = .error .valueError) := by
  rcases cases_refused (Doc.splitLines [] s) with ⟨h1, h2⟩
  exact ⟨h1, h2⟩

/-- Non-vacuity: an empty line at the end. -/
example : ∃ l ∈ Doc.splitLines [] t!"1 0 0\n\n", (splitBlanks [] l).length ≠ 3 := by decide

end Bglib
