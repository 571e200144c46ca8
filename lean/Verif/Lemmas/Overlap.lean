import Verif.Lemmas.Monster
/-
Whether two expressions can match the same text.
-/
namespace Bglib
open Spec

/-- Sets that may have a character in common. -/
def CharSet.meets (c d : CharSet) : Bool :=
  match c.neg, d.neg with
  | false, false => c.ranges.any fun r => d.ranges.any fun q => r.1 ≤ q.2 && q.1 ≤ r.2
  | false, true => c.ranges.any fun r => !d.ranges.any fun q => q.1 ≤ r.1 && r.2 ≤ q.2
  | true, false => d.ranges.any fun r => !c.ranges.any fun q => q.1 ≤ r.1 && r.2 ≤ q.2
  | true, true => true

theorem meets_sound (c d : CharSet) (x : Char) (hc : c.mem x = true) (hd : d.mem x = true) : c.meets d = true := by
  obtain ⟨cn, cr⟩ := c
  obtain ⟨dn, dr⟩ := d
  unfold CharSet.mem at hc hd
  unfold CharSet.meets
  have one : ∀ (as bs : List (Char × Char)), (as.any fun r => r.1 ≤ x && x ≤ r.2) = true → (bs.any fun r => r.1 ≤ x && x ≤ r.2) = false →
      (as.any fun r => !bs.any fun q => q.1 ≤ r.1 && r.2 ≤ q.2) = true := by
    intro as bs ha hb
    obtain ⟨r, hr, h1⟩ := List.any_eq_true.1 ha
    refine List.any_eq_true.2 ⟨r, hr, ?_⟩
    rw [Bool.not_eq_true', List.any_eq_false]
    intro q hq hqr
    have := List.any_eq_false.1 hb q hq
    simp only [Bool.and_eq_true, decide_eq_true_eq] at h1 hqr this
    exact this ⟨Char.le_trans hqr.1 h1.1, Char.le_trans h1.2 hqr.2⟩
  cases cn <;> cases dn <;> dsimp only at *
  · simp only [Bool.bne_false] at hc hd
    obtain ⟨r, hr, h1⟩ := List.any_eq_true.1 hc
    obtain ⟨q, hq, h2⟩ := List.any_eq_true.1 hd
    refine List.any_eq_true.2 ⟨r, hr, List.any_eq_true.2 ⟨q, hq, ?_⟩⟩
    simp only [Bool.and_eq_true, decide_eq_true_eq] at h1 h2 ⊢
    exact ⟨Char.le_trans h1.1 h2.2, Char.le_trans h2.1 h1.2⟩
  · exact one _ _ (by simpa using hc) (by simpa using hd)
  · exact one _ _ (by simpa using hd) (by simpa using hc)

/-- Whether some text can begin with both; `true` when in doubt. -/
def meet : Nat → List Item → List Item → Bool
  | 0, _, _ => true
  | _ + 1, [], _ => true
  | _ + 1, _, [] => true
  | _ + 1, .eol :: _, q => matchItems q [] || matchItems q ['\n']
  | _ + 1, p, .eol :: _ => matchItems p [] || matchItems p ['\n']
  | n + 1, .set c .plus :: p, q => meet n (.set c .one :: .set c .star :: p) q
  | n + 1, .set c .opt :: p, q => meet n p q || meet n (.set c .one :: p) q
  | n + 1, p, .set d .plus :: q => meet n p (.set d .one :: .set d .star :: q)
  | n + 1, p, .set d .opt :: q => meet n p q || meet n p (.set d .one :: q)
  | n + 1, .set c .one :: p, .set d .one :: q => c.meets d && meet n p q
  | n + 1, .set c .one :: p, .set d .star :: q => meet n (.set c .one :: p) q || (c.meets d && meet n p (.set d .star :: q))
  | n + 1, .set c .star :: p, .set d .one :: q => meet n p (.set d .one :: q) || (c.meets d && meet n (.set c .star :: p) q)
  | n + 1, .set c .star :: p, .set d .star :: q => meet n p (.set d .star :: q) || meet n (.set c .star :: p) q

theorem reads_plus {c : CharSet} {p : List Item} {s : Text} (h : Reads (.set c .plus :: p) s) : Reads (.set c .one :: .set c .star :: p) s := by
  cases h with
  | plus _ t _ s h1 h2 h3 =>
    cases t with
    | nil => exact absurd rfl h1
    | cons x t => exact .one _ _ _ _ (h2 x (by simp)) (.star _ _ _ _ (fun y hy => h2 y (by simp [hy])) h3)

theorem reads_opt {c : CharSet} {p : List Item} {s : Text} (h : Reads (.set c .opt :: p) s) : Reads p s ∨ Reads (.set c .one :: p) s := by
  cases h with
  | opt _ t _ s h1 h2 h3 =>
    match t, h1 with
    | [], _ => exact Or.inl h3
    | [x], _ => exact Or.inr (.one _ _ _ _ (h2 x (by simp)) h3)

theorem reads_one {c : CharSet} {p : List Item} {s : Text} (h : Reads (.set c .one :: p) s) : ∃ x r, s = x :: r ∧ c.mem x = true ∧ Reads p r := by
  cases h with
  | one _ x _ r h1 h2 => exact ⟨x, r, rfl, h1, h2⟩

theorem reads_star {c : CharSet} {p : List Item} {s : Text} (h : Reads (.set c .star :: p) s) :
    ∃ t r, s = t ++ r ∧ (∀ x ∈ t, c.mem x = true) ∧ Reads p r := by
  cases h with
  | star _ t _ r h1 h2 => exact ⟨t, r, rfl, h1, h2⟩

theorem reads_eol {p : List Item} {s : Text} (h : Reads (.eol :: p) s) : s = [] ∨ s = ['\n'] := by
  cases h with
  | eol _ _ h _ => exact h

theorem end_match {q : List Item} {s : Text} (h : s = [] ∨ s = ['\n']) (hq : Reads q s) : (matchItems q [] || matchItems q ['\n']) = true := by
  have := (matchItems_iff q s).2 hq
  rcases h with rfl | rfl <;> simp [this]

theorem meet_sound (n : Nat) (p q : List Item) (s : Text) (hp : Reads p s) (hq : Reads q s) : meet n p q = true := by
  induction n generalizing p q s with
  | zero => rfl
  | succ n ih =>
    unfold meet
    split <;> (try injections) <;> (try subst_vars)
    · rfl
    · rfl
    · exact end_match (reads_eol hp) hq
    · exact end_match (reads_eol hq) hp
    · exact ih _ _ s (reads_plus hp) hq
    · rw [Bool.or_eq_true]
      exact (reads_opt hp).imp (fun h => ih _ _ s h hq) (fun h => ih _ _ s h hq)
    · exact ih _ _ s hp (reads_plus hq)
    · rw [Bool.or_eq_true]
      exact (reads_opt hq).imp (fun h => ih _ _ s hp h) (fun h => ih _ _ s hp h)
    · obtain ⟨x, r, rfl, h1, h2⟩ := reads_one hp
      obtain ⟨y, r', h, h3, h4⟩ := reads_one hq
      cases h
      rw [Bool.and_eq_true]
      exact ⟨meets_sound _ _ x h1 h3, ih _ _ r h2 h4⟩
    · rw [Bool.or_eq_true, Bool.and_eq_true]
      obtain ⟨x, r, rfl, h1, h2⟩ := reads_one hp
      obtain ⟨t, r', h, h3, h4⟩ := reads_star hq
      cases t with
      | nil => rw [List.nil_append] at h; subst h; exact Or.inl (ih _ _ _ hp h4)
      | cons y t =>
        cases h
        exact Or.inr ⟨meets_sound _ _ x h1 (h3 x (by simp)), ih _ _ _ h2 (.star _ _ _ _ (fun z hz => h3 z (by simp [hz])) h4)⟩
    · rw [Bool.or_eq_true, Bool.and_eq_true]
      obtain ⟨x, r, rfl, h1, h2⟩ := reads_one hq
      obtain ⟨t, r', h, h3, h4⟩ := reads_star hp
      cases t with
      | nil => rw [List.nil_append] at h; subst h; exact Or.inl (ih _ _ _ h4 hq)
      | cons y t =>
        cases h
        exact Or.inr ⟨meets_sound _ _ x (h3 x (by simp)) h1, ih _ _ _ (.star _ _ _ _ (fun z hz => h3 z (by simp [hz])) h4) h2⟩
    · rw [Bool.or_eq_true]
      obtain ⟨t, r, rfl, h1, h2⟩ := reads_star hp
      obtain ⟨t', r', h, h3, h4⟩ := reads_star hq
      rcases List.append_eq_append_iff.1 h with ⟨a, rfl, rfl⟩ | ⟨a, rfl, rfl⟩
      · exact Or.inl (ih _ _ _ h2 (.star _ _ _ _ (fun z hz => h3 z (by simp [hz])) h4))
      · exact Or.inr (ih _ _ _ (.star _ _ _ _ (fun z hz => h1 z (by simp [hz])) h2) h4)

/-- Two patterns of the table that may match the same text. -/
def meetRe (p q : Text) : Bool :=
  match compileRe p, compileRe q with
  | some a, some b => meet 400 a b
  | _, _ => false

theorem meetRe_sound (p q s : Text) (hp : reMatch p s = true) (hq : reMatch q s = true) : meetRe p q = true := by
  unfold reMatch at hp hq
  unfold meetRe
  cases hcp : compileRe p with
  | none => rw [hcp] at hp; cases hp
  | some a =>
    cases hcq : compileRe q with
    | none => rw [hcq] at hq; cases hq
    | some b =>
      rw [hcp] at hp
      rw [hcq] at hq
      exact meet_sound 400 a b s ((matchItems_iff a s).1 hp) ((matchItems_iff b s).1 hq)

end Bglib
