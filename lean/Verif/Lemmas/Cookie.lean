import Verif.Spec.Cookie
namespace Bglib
open Spec

/-! ### Regular expressions -/

theorem starLoop_iff (c : CharSet) (k : Text → Bool) (s : Text) :
    starLoop c k s = true ↔ ∃ p r, s = p ++ r ∧ (∀ x ∈ p, c.mem x = true) ∧ k r = true := by
  induction s with
  | nil =>
    simp only [starLoop]
    constructor
    · intro h; exact ⟨[], [], rfl, by simp, h⟩
    · rintro ⟨p, r, h, _, hk⟩
      obtain ⟨rfl, rfl⟩ := List.append_eq_nil_iff.1 h.symm
      exact hk
  | cons x s ih =>
    simp only [starLoop, Bool.or_eq_true, Bool.and_eq_true, ih]
    constructor
    · rintro (h | ⟨hx, p, r, rfl, hp, hk⟩)
      · exact ⟨[], x :: s, rfl, by simp, h⟩
      · exact ⟨x :: p, r, rfl, by simpa [hx] using hp, hk⟩
    · rintro ⟨p, r, h, hp, hk⟩
      cases p with
      | nil => left; simp at h; rw [h]; exact hk
      | cons y p =>
        right
        simp at h
        obtain ⟨rfl, rfl⟩ := h
        simp at hp
        exact ⟨hp.1, p, r, rfl, hp.2, hk⟩

/-- The matcher decides the declarative reading. -/
theorem matchItems_iff (is : List Item) (s : Text) : matchItems is s = true ↔ Reads is s := by
  induction is generalizing s with
  | nil => simp only [matchItems, true_iff]; exact Reads.done s
  | cons i is ih =>
    cases i with
    | eol =>
      simp only [matchItems, Bool.and_eq_true, Bool.or_eq_true, decide_eq_true_eq, ih]
      constructor
      · rintro ⟨h1, h2⟩; exact .eol is s h1 h2
      · rintro (_ | ⟨_, _, h1, h2⟩); exact ⟨h1, h2⟩
    | set c r =>
      cases r with
      | one =>
        cases s with
        | nil => simp only [matchItems]; constructor
                 · simp
                 · intro h; cases h
        | cons x s =>
          simp only [matchItems, Bool.and_eq_true, ih]
          constructor
          · rintro ⟨h1, h2⟩; exact .one c x is s h1 h2
          · intro h; cases h with | one _ _ _ _ h1 h2 => exact ⟨h1, h2⟩
      | opt =>
        simp only [matchItems, Bool.or_eq_true, ih]
        constructor
        · rintro (h | h)
          · exact .opt c [] is s (by simp) (by simp) h
          · cases s with
            | nil => simp at h
            | cons x s =>
              simp only [Bool.and_eq_true, ih] at h
              exact .opt c [x] is s (by simp) (by simpa using h.1) h.2
        · intro h
          generalize hs : s = s' at h
          cases h with
          | opt _ p _ r hl hp hr =>
            subst hs
            match p, hl with
            | [], _ => left; exact hr
            | [x], _ => right; simp only [List.cons_append, List.nil_append, Bool.and_eq_true, ih]; exact ⟨hp x (by simp), hr⟩
      | star =>
        simp only [matchItems, starLoop_iff, ih]
        constructor
        · rintro ⟨p, r, rfl, hp, hr⟩; exact .star c p is r hp hr
        · intro h
          generalize hs : s = s' at h
          cases h with
          | star _ p _ r hp hr => exact ⟨p, r, rfl, hp, hr⟩
      | plus =>
        constructor
        · intro h
          cases s with
          | nil => simp [matchItems] at h
          | cons x s =>
            simp only [matchItems, Bool.and_eq_true, starLoop_iff, ih] at h
            obtain ⟨hx, p, r, rfl, hp, hr⟩ := h
            exact .plus c (x :: p) is r (by simp) (by simpa [hx] using hp) hr
        · intro h
          generalize hs : s = s' at h
          cases h with
          | plus _ p _ r hne hp hr =>
            cases p with
            | nil => exact absurd rfl hne
            | cons x p =>
              subst hs
              simp only [List.cons_append, matchItems, Bool.and_eq_true, starLoop_iff, ih]
              simp only [List.mem_cons, forall_eq_or_imp] at hp
              exact ⟨hp.1, p, r, rfl, hp.2, hr⟩

/-- As `starLoop`, for `refuted`. -/
def starRefuted (c : CharSet) (k : Text → Bool) : Text → Bool
  | [] => false
  | x :: s => k (x :: s) && (!c.mem x || starRefuted c k s)

/-- Items that cannot match any text with the given beginning. -/
def refuted : List Item → Text → Bool
  | [], _ => false
  | .eol :: _, s => match s with
    | [] => false
    | x :: _ => x != '\n'
  | .set c .one :: r, s => match s with
    | [] => false
    | x :: s => !c.mem x || refuted r s
  | .set c .opt :: r, s => match s with
    | [] => false
    | x :: s => refuted r (x :: s) && (!c.mem x || refuted r s)
  | .set c .star :: r, s => starRefuted c (refuted r) s
  | .set c .plus :: r, s => match s with
    | [] => false
    | x :: s => !c.mem x || starRefuted c (refuted r) s

theorem starLoop_refuted (c : CharSet) (r : List Item) (t : Text)
    (ih : ∀ s, refuted r s = true → matchItems r (s ++ t) = false) (s : Text)
    (h : starRefuted c (refuted r) s = true) : starLoop c (matchItems r) (s ++ t) = false := by
  induction s with
  | nil => simp [starRefuted] at h
  | cons x s ihs =>
    rw [starRefuted] at h
    simp only [Bool.and_eq_true, Bool.or_eq_true, Bool.not_eq_true'] at h
    simp only [List.cons_append, starLoop, Bool.or_eq_false_iff, Bool.and_eq_false_iff]
    refine ⟨?_, ?_⟩
    · have := ih (x :: s) h.1; simpa using this
    · rcases h.2 with h2 | h2
      · exact Or.inl h2
      · exact Or.inr (ihs h2)

theorem refuted_sound (is : List Item) (s t : Text) (h : refuted is s = true) :
    matchItems is (s ++ t) = false := by
  induction is generalizing s with
  | nil => simp [refuted] at h
  | cons i is ih =>
    cases s with
    | nil => cases i with
      | eol => simp [refuted] at h
      | set c r => cases r <;> simp [refuted, starRefuted] at h
    | cons x s =>
      cases i with
      | eol =>
        simp only [refuted, bne_iff_ne, ne_eq] at h
        simp [matchItems, h]
      | set c r =>
        cases r with
        | one =>
          simp only [refuted, Bool.or_eq_true, Bool.not_eq_true'] at h
          simp only [List.cons_append, matchItems, Bool.and_eq_false_iff]
          rcases h with h | h
          · exact Or.inl h
          · exact Or.inr (ih s h)
        | opt =>
          simp only [refuted, Bool.and_eq_true, Bool.or_eq_true, Bool.not_eq_true'] at h
          simp only [List.cons_append, matchItems, Bool.or_eq_false_iff, Bool.and_eq_false_iff]
          refine ⟨by simpa using ih (x :: s) h.1, ?_⟩
          rcases h.2 with h | h
          · exact Or.inl h
          · exact Or.inr (ih s h)
        | star =>
          rw [matchItems]
          exact starLoop_refuted c is t ih (x :: s) h
        | plus =>
          simp only [refuted, Bool.or_eq_true, Bool.not_eq_true'] at h
          simp only [List.cons_append, matchItems, Bool.and_eq_false_iff]
          rcases h with h | h
          · exact Or.inl h
          · exact Or.inr (starLoop_refuted c is t ih s h)

/-- A pattern that cannot match any text with the given beginning. -/
def refutedRe (p s : Text) : Bool :=
  match compileRe p with
  | some is => refuted is s
  | none => true

theorem refutedRe_sound (p s t : Text) (h : refutedRe p s = true) : reMatch p (s ++ t) = false := by
  unfold refutedRe at h
  unfold reMatch
  cases hc : compileRe p with
  | none => rfl
  | some is => rw [hc] at h; exact refuted_sound is s t h

/-! ### The tables -/

/-- Positions of the assignments of `runSource` that are replaced by a later one. -/
def replaced : List Nat := [11, 17, 23, 28, 79, 88, 89, 90, 91, 92, 93, 94, 95, 96, 97, 98, 99, 100, 101,
  102, 103, 104, 105, 106, 107, 108, 109, 110, 111, 112, 113, 114, 115, 116, 117, 118, 119, 120, 121, 122,
  130, 131, 170]

def dropAt {α : Type} (is : List Nat) (i : Nat) : List α → List α
  | [] => []
  | x :: xs => match is with
    | j :: js => if j = i then dropAt js (i + 1) xs else x :: dropAt is (i + 1) xs
    | [] => x :: xs

/-- `runTable` without the quadratic search. -/
def runEffective : Table := dropAt replaced 0 runSource

theorem runTable_eq : runTable = runEffective := by decide +kernel

theorem run_compiles : ∀ e ∈ runEffective, (compileAll e.2).isSome = true := by
  have : runEffective.all (fun e => (compileAll e.2).isSome) = true := by decide +kernel
  simpa using this

end Bglib
