import Verif.Lemmas.Heads
import Verif.Lemmas.Text
import Verif.Model.FibsText
import Verif.Spec.FibsText
/-
Helper lemmas: all matches of a set of characters, or of runs of it.
-/
namespace Bglib
open Spec

/-- The matches of `r` in a text that is not at the beginning, or where the beginning does not matter. -/
def Finds (r : Re) (s : Text) (out : List Text) : Prop :=
  ∀ (fuel : Nat) (st : Bool), s.length < fuel → (findAll [((), r)] fuel ⟨st, s, []⟩).map (fun x => x.2.1) = out

theorem finds_findall {r : Re} {s : Text} {out : List Text} (h : Finds r s out) : findall r s = out :=
  h _ _ (by omega)

theorem finds_skip {r : Re} {c : Char} {s : Text} {out : List Text} (hc : ∀ st, r.all ⟨st, c :: s, []⟩ = [])
    (h : Finds r s out) : Finds r (c :: s) out := by
  intro fuel st hf
  cases fuel with
  | zero => simp at hf
  | succ fuel =>
    rw [findAll]
    simp only [firstPattern, hc]
    exact h _ _ (by simpa using hf)

theorem finds_take {r : Re} {u s : Text} {out : List Text} (hu : u ≠ [])
    (hc : ∀ st, Heads r ⟨st, u ++ s, []⟩ ⟨false, s, []⟩) (h : Finds r s out) : Finds r (u ++ s) (u :: out) := by
  intro fuel st hf
  have hl : s.length < (u ++ s).length := by
    cases u with
    | nil => exact absurd rfl hu
    | cons => simp; omega
  cases fuel with
  | zero => simp at hf
  | succ fuel =>
    obtain ⟨t, ht⟩ := hc st
    rw [findAll]
    simp only [firstPattern, ht]
    rw [if_pos hl]
    have hb : between ⟨st, u ++ s, []⟩ ⟨false, s, []⟩ = u := between_eq rfl
    simp only [hb, List.map_cons]
    rw [h _ _ (by omega)]

/-- `Finds` for single characters of a set. -/
theorem findsSet_nil (s : CharSet) : Finds (.set s) [] [] := by
  intro fuel st hf
  cases fuel with
  | zero => rfl
  | succ fuel => simp [findAll, firstPattern, Re.all]

theorem findsSet_skip {s : CharSet} {u r : Text} {out : List Text} (hu : ∀ c ∈ u, s.mem c = false)
    (h : Finds (.set s) r out) : Finds (.set s) (u ++ r) out := by
  induction u with
  | nil => exact h
  | cons c u ih =>
    refine finds_skip (fun st => ?_) (ih fun x hx => hu x (by simp [hx]))
    simp [Re.all, hu c (by simp)]

theorem findsSet_take {s : CharSet} {c : Char} {r : Text} {out : List Text} (hc : s.mem c = true)
    (h : Finds (.set s) r out) : Finds (.set s) (c :: r) ([c] :: out) :=
  finds_take (u := [c]) (by simp) (fun st => heads_set hc st r []) h

theorem findsSet_filter (s : CharSet) (t : Text) : Finds (.set s) t ((t.filter s.mem).map fun c => [c]) := by
  induction t with
  | nil => exact findsSet_nil s
  | cons c t ih =>
    rcases h : s.mem c with _ | _
    · rw [List.filter_cons_of_neg (by simp [h])]
      exact findsSet_skip (u := [c]) (by simpa using h) ih
    · rw [List.filter_cons_of_pos (by simp [h])]
      exact findsSet_take h ih

/-- `Finds` for runs of characters of a set. -/
theorem findsPlus_nil (s : CharSet) : Finds (.plus (.set s)) [] [] := by
  intro fuel st hf
  cases fuel with
  | zero => rfl
  | succ fuel => simp [findAll, firstPattern, Re.plus, Re.all, repAll]

theorem findsPlus_skip {s : CharSet} {u r : Text} {out : List Text} (hu : ∀ c ∈ u, s.mem c = false)
    (h : Finds (.plus (.set s)) r out) : Finds (.plus (.set s)) (u ++ r) out := by
  induction u with
  | nil => exact h
  | cons c u ih =>
    refine finds_skip (fun st => all_plus_nil ?_) (ih fun x hx => hu x (by simp [hx]))
    intro d hd
    simp at hd
    exact hd ▸ hu c (by simp)

theorem findsPlus_take {s : CharSet} {u r : Text} {out : List Text} (hne : u ≠ []) (hu : ∀ c ∈ u, s.mem c = true)
    (hr : Stops s r) (h : Finds (.plus (.set s)) r out) : Finds (.plus (.set s)) (u ++ r) (u :: out) :=
  finds_take hne (fun st => heads_plus hr u hne hu st []) h

/-! ### Messages -/

theorem decimal_mem (n : Nat) : ∀ c ∈ decimal n, CharSet.mem ⟨false, [('0', '9')]⟩ c = true := by
  intro c hc
  obtain ⟨d, hd, rfl⟩ := decimal_digits hc
  have : ∀ d, d < 10 → CharSet.mem ⟨false, [('0', '9')]⟩ (digitChar d) = true := by decide
  exact this d hd

theorem stops_head {s : CharSet} {c : Char} {r : Text} (h : s.mem c = false) : Stops s (c :: r) := by
  intro d hd
  simp at hd
  exact hd ▸ h

theorem name_not_digit {c : Char} (h : NameLetter c) : CharSet.mem ⟨false, [('0', '9')]⟩ c = false := by
  unfold NameLetter at h
  rcases h with h | h | rfl | rfl | rfl
  · have h1 : ¬ c ≤ '9' := fun hc => absurd (Char.le_trans h.1 hc) (by decide)
    simp [CharSet.mem, h1]
  · have h1 : ¬ c ≤ '9' := fun hc => absurd (Char.le_trans h.1 hc) (by decide)
    simp [CharSet.mem, h1]
  all_goals decide

theorem name_not_die {c : Char} (h : NameLetter c) : CharSet.mem ⟨false, [('1', '6')]⟩ c = false := by
  unfold NameLetter at h
  rcases h with h | h | rfl | rfl | rfl
  · have h1 : ¬ c ≤ '6' := fun hc => absurd (Char.le_trans h.1 hc) (by decide)
    simp [CharSet.mem, h1]
  · have h1 : ¬ c ≤ '6' := fun hc => absurd (Char.le_trans h.1 hc) (by decide)
    simp [CharSet.mem, h1]
  all_goals decide

theorem name_mem {c : Char} :
    CharSet.mem ⟨false, [('a', 'z'), ('A', 'Z'), ('_', '_'), ('<', '<'), ('>', '>')]⟩ c = true ↔ NameLetter c := by
  have e : ∀ d : Char, (d ≤ c ∧ c ≤ d) ↔ c = d := by
    intro d
    constructor
    · rintro ⟨h1, h2⟩
      exact Char.le_antisymm h2 h1
    · rintro rfl
      exact ⟨Char.le_refl _, Char.le_refl _⟩
  simp only [CharSet.mem, List.any_cons, List.any_nil, Bool.bne_false, Bool.or_false, Bool.or_eq_true,
    Bool.and_eq_true, decide_eq_true_eq, NameLetter, e]

theorem toInt_decimal (n : Nat) : toInt (decimal n) = .ok (n : Int) := by rw [toInt, pyInt_decimal]

end Bglib
