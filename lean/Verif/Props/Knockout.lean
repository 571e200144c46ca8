import Verif.Lemmas.Knockout
/-
C87: what `3knockout.py` prints.  The words are in Verif/Spec/Knockout.lean.
-/
namespace Bglib
open Spec Classical

/-- **C87**: a tournament of `n` players with three lives each takes a possible number of rounds, whatever
the shuffles and the random numbers. -/
theorem C87_rounds (x : Luck) (hx : Luck.Fair x) (n : Nat) (hn : 2 ≤ n) :
    ∃ c, countRounds x.shuffle x.coins (3 * n) 0 (Tourney.new n) = .ok c ∧ Possible n c :=
  rounds_possible x hx n hn

/-- **C87**: the printed line.  Each number of rounds is listed once, with how many experiments took it; the
counts add up to the number of experiments; every listed number is possible; and the printed average is the
average. -/
theorem C87_line (n : Nat) (hn : 2 ≤ n) (luck : List Luck) (hl : luck ≠ []) (hf : ∀ x ∈ luck, Luck.Fair x) :
    ∃ d, knockoutLine (3 * n) n luck = .ok (n, (counted d : ℝ) / luck.length, d) ∧
      (d.map (·.1)).Nodup ∧ (d.map (·.2)).sum = luck.length ∧ (∀ c ∈ d.map (·.1), Possible n c) ∧
      ∀ c, times d c =
        (luck.filter fun x => decide (countRounds x.shuffle x.coins (3 * n) 0 (Tourney.new n) = .ok c)).length := by
  obtain ⟨d, h0, h1, h2, h3, h4⟩ := experiments_spec n hn luck [] hf (by simp) (by simp)
  refine ⟨d, ?_, h1, by simpa using h3, h2, fun c => by simpa [times] using h4 c⟩
  unfold knockoutLine
  rw [show ((0 : ℝ)) = ((counted [] : Nat) : ℝ) by simp [counted], h0]
  simp only
  rw [if_neg (by simpa using hl)]

theorem counted_le {b : Nat} : ∀ d : List (Nat × Nat), (∀ c ∈ d.map (·.1), c ≤ b) →
    counted d ≤ b * (d.map (·.2)).sum := by
  intro d
  unfold counted
  induction d with
  | nil => simp
  | cons a d ih =>
    intro h
    have h1 := h a.1 (by simp)
    have h2 := ih (fun c hc => h c (by simp only [List.map_cons, List.mem_cons]; exact .inr hc))
    simp only [List.map_cons, List.sum_cons, Nat.mul_add]
    exact Nat.add_le_add (Nat.mul_le_mul_right _ h1) h2

theorem le_counted {b : Nat} : ∀ d : List (Nat × Nat), (∀ c ∈ d.map (·.1), b ≤ c) →
    b * (d.map (·.2)).sum ≤ counted d := by
  intro d
  unfold counted
  induction d with
  | nil => simp
  | cons a d ih =>
    intro h
    have h1 := h a.1 (by simp)
    have h2 := ih (fun c hc => h c (by simp only [List.map_cons, List.mem_cons]; exact .inr hc))
    simp only [List.map_cons, List.sum_cons, Nat.mul_add]
    exact Nat.add_le_add (Nat.mul_le_mul_right _ h1) h2

/-- **C87**: the printed average lies between the bounds of the numbers of rounds, and so the averages are
at least 5 and at most 11 for the first line, and at least 10 and at most 31 for the last. -/
theorem C87_average (n : Nat) (hn : 2 ≤ n) (luck : List Luck) (hl : luck ≠ []) (hf : ∀ x ∈ luck, Luck.Fair x)
    (k : Nat) (hk : 2 ^ k < n) :
    ∃ a d, knockoutLine (3 * n) n luck = .ok (n, a, d) ∧ ((k + 3 : Nat) : ℝ) ≤ a ∧ a ≤ (most (3 * n) : Nat) := by
  obtain ⟨d, h0, _, h2, h3, _⟩ := C87_line n hn luck hl hf
  refine ⟨_, d, h0, ?_, ?_⟩
  · have hpos : (0 : ℝ) < luck.length := by exact_mod_cast List.length_pos_iff.2 hl
    rw [le_div_iff₀ hpos, ← h2]
    have := le_counted (b := k + 3) d (fun c hc => by
      obtain ⟨g1, g2, _⟩ := h3 c hc
      have : k < c - 2 := (Nat.pow_lt_pow_iff_right (a := 2) (by omega)).1 (by omega)
      omega)
    exact_mod_cast this
  · have hpos : (0 : ℝ) < luck.length := by exact_mod_cast List.length_pos_iff.2 hl
    rw [div_le_iff₀ hpos, ← h2]
    exact_mod_cast counted_le d (fun c hc => (h3 c hc).2.2)

/-- **C87**: each line of the script is about a hundred thousand experiments. -/
theorem C87_experiments (n : Nat) (hn : n ∈ knockoutSizes) (luck : List Luck) (hl : luck.length = knockoutExperiments)
    (hf : ∀ x ∈ luck, Luck.Fair x) :
    ∃ a d, knockoutLine (3 * n) n luck = .ok (n, a, d) ∧ (d.map (·.2)).sum = 100000 := by
  have h2 : 2 ≤ n := (by decide +kernel : ∀ n ∈ knockoutSizes, 2 ≤ n) n hn
  obtain ⟨d, h, -, hs, -⟩ := C87_line n h2 luck (by rintro rfl; simp [knockoutExperiments] at hl) hf
  exact ⟨_, d, h, hs.trans hl⟩

/-- The bounds of the first and the last line of the script. -/
example : knockoutSizes.head? = some 5 ∧ knockoutSizes.getLast? = some 190 ∧ 2 ^ 2 < 5 ∧ most (3 * 5) = 11 ∧
    2 ^ 7 < 190 ∧ most (3 * 190) = 31 := by
  refine ⟨by decide +kernel, by decide +kernel, by decide, by decide +kernel, by decide, by decide +kernel⟩

/-- All lines of the script have two players at least. -/
example : ∀ n ∈ knockoutSizes, 2 ≤ n := by decide

/-- Two players who always lose in turn take all their defeats but one: the most rounds do occur. -/
example : Possible 2 5 ∧ ¬ Possible 2 6 ∧ ¬ Possible 2 2 ∧ Possible 5 5 ∧ ¬ Possible 5 4 := by
  unfold Possible
  refine ⟨by decide +kernel, by decide +kernel, by decide +kernel, by decide +kernel, by decide +kernel⟩

/-- The theorems apply to the luck that leaves the order and always lets the first win. -/
example : ∃ c, countRounds (fun _ l => l) (fun _ _ => 0) 15 0 (Tourney.new 5) = .ok c ∧ 5 ≤ c ∧ c ≤ 11 := by
  obtain ⟨c, h, h1, h2, h3⟩ := C87_rounds ⟨fun _ l => l, fun _ _ => 0⟩ (fun _ _ => .refl _) 5 (by decide)
  refine ⟨c, h, ?_, by rw [show most (3 * 5) = 11 by decide +kernel] at h3; exact h3⟩
  rcases Nat.lt_or_ge c 5 with h4 | h4
  · have : 2 ^ (c - 2) ≤ 2 ^ 2 := Nat.pow_le_pow_right (by decide) (by omega)
    omega
  · exact h4

end Bglib
