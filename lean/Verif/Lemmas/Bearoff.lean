import Verif.Spec.Bearoff
import Mathlib.Data.Nat.Choose.Basic
namespace Bglib
open Spec

theorem foldl_add_eq (l : List Nat) (a : Nat) : l.foldl (· + ·) a = a + l.sum := by
  induction l generalizing a with
  | nil => simp
  | cons x xs ih => simp [ih]; omega

theorem countChequers_eq (t : List Nat) : countChequers t = t.sum := by
  unfold countChequers; rw [foldl_add_eq]; simp

/-- The index as a recursion over points and capacity. -/
def rank : List Nat → Nat → Nat
  | [], _ => 0
  | _ :: xs, 0 => (xs.length + 0).choose (xs.length + 1) + rank xs 0
  | x :: xs, c + 1 =>
    if x + xs.sum = c + 1 then (xs.length + (c + 1)).choose (xs.length + 1) + rank xs (c + 1)
    else rank (x :: xs) c
termination_by t c => (t.length, c)

theorem rank_zero (t : List Nat) : rank t 0 = 0 := by
  induction t with
  | nil => simp [rank]
  | cons x xs ih => simp [rank, ih]

theorem rank_top {x : Nat} {xs : List Nat} {c : Nat} (h : x + xs.sum = c) :
    rank (x :: xs) c = (xs.length + c).choose (xs.length + 1) + rank xs c := by
  cases c with
  | zero => simp [rank]
  | succ c => rw [rank, if_pos h]

theorem rank_below {x : Nat} {xs : List Nat} {c : Nat} (h : x + xs.sum ≤ c) :
    rank (x :: xs) (c + 1) = rank (x :: xs) c := by
  rw [rank, if_neg (by omega)]

theorem rank_lt (t : List Nat) (c : Nat) (h : t.sum ≤ c) : rank t c < (t.length + c).choose t.length := by
  induction t generalizing c with
  | nil => simp [rank]
  | cons x xs ih =>
    simp only [List.sum_cons, List.length_cons] at h ⊢
    induction c with
    | zero =>
      rw [rank_zero]; exact Nat.choose_pos (by omega)
    | succ c ihc =>
      have hp : (xs.length + 1 + (c + 1)).choose (xs.length + 1) =
          (xs.length + (c + 1)).choose xs.length + (xs.length + (c + 1)).choose (xs.length + 1) := by
        rw [show xs.length + 1 + (c + 1) = (xs.length + (c + 1)) + 1 by omega, Nat.choose_succ_succ]
      by_cases h1 : x + xs.sum = c + 1
      · rw [rank_top h1, hp]
        have := ih (c + 1) (by omega)
        omega
      · rw [rank_below (by omega), hp]
        have := ihc (by omega)
        rw [show xs.length + 1 + c = xs.length + (c + 1) by omega] at this
        omega

theorem rank_inj (t u : List Nat) (c : Nat) (hl : t.length = u.length) (ht : t.sum ≤ c) (hu : u.sum ≤ c)
    (h : rank t c = rank u c) : t = u := by
  induction t generalizing u c with
  | nil => cases u with
    | nil => rfl
    | cons => simp at hl
  | cons x xs ih =>
    cases u with
    | nil => simp at hl
    | cons y ys =>
      simp only [List.length_cons, Nat.add_right_cancel_iff] at hl
      simp only [List.sum_cons] at ht hu
      induction c with
      | zero =>
        have : xs = ys := ih ys 0 hl (by omega) (by omega) (by rw [rank_zero, rank_zero])
        subst this
        have : x = y := by omega
        rw [this]
      | succ c ihc =>
        by_cases h1 : x + xs.sum = c + 1 <;> by_cases h2 : y + ys.sum = c + 1
        · rw [rank_top h1, rank_top h2, hl] at h
          have : xs = ys := ih ys (c + 1) hl (by omega) (by omega) (by omega)
          subst this
          have : x = y := by omega
          rw [this]
        · exfalso
          rw [rank_top h1, rank_below (by omega)] at h
          have := rank_lt (y :: ys) c (by simp; omega)
          simp only [List.length_cons, ← hl] at this
          rw [show xs.length + 1 + c = xs.length + (c + 1) by omega] at this
          omega
        · exfalso
          rw [rank_top h2, rank_below (by omega)] at h
          have := rank_lt (x :: xs) c (by simp; omega)
          simp only [List.length_cons, hl] at this
          rw [show ys.length + 1 + c = ys.length + (c + 1) by omega] at this
          omega
        · rw [rank_below (by omega), rank_below (by omega)] at h
          exact ihc (by omega) (by omega) h

theorem rank_surj (p c k : Nat) (h : k < (p + c).choose p) :
    ∃ t : List Nat, t.length = p ∧ t.sum ≤ c ∧ rank t c = k := by
  induction p generalizing c k with
  | zero => simp at h; exact ⟨[], rfl, by simp, by simp [rank, h]⟩
  | succ p ih =>
    induction c generalizing k with
    | zero =>
      simp at h
      exact ⟨List.replicate (p + 1) 0, by simp, by simp, by rw [rank_zero, h]⟩
    | succ c ihc =>
      have hp : (p + 1 + (c + 1)).choose (p + 1) =
          (p + (c + 1)).choose p + (p + (c + 1)).choose (p + 1) := by
        rw [show p + 1 + (c + 1) = (p + (c + 1)) + 1 by omega, Nat.choose_succ_succ]
      by_cases hk : (p + (c + 1)).choose (p + 1) ≤ k
      · obtain ⟨xs, h1, h2, h3⟩ := ih (c + 1) (k - (p + (c + 1)).choose (p + 1)) (by omega)
        refine ⟨(c + 1 - xs.sum) :: xs, by simp [h1], by simp; omega, ?_⟩
        rw [rank_top (by omega), h1, h3]; omega
      · obtain ⟨t, h1, h2, h3⟩ := ihc k (by rw [show p + 1 + c = p + (c + 1) by omega]; omega)
        refine ⟨t, h1, by omega, ?_⟩
        cases t with
        | nil => simp at h1
        | cons x xs => simp at h2; rw [rank_below (by omega), h3]

/-- The places of the set bits. -/
def InBits : List Nat → Nat → Prop
  | [], _ => False
  | x :: xs, i => i = xs.length + x + xs.sum ∨ InBits xs i

theorem inBits_lt {t : List Nat} {i : Nat} (h : InBits t i) : i < t.length + t.sum := by
  induction t with
  | nil => exact h.elim
  | cons x xs ih =>
    simp only [List.length_cons, List.sum_cons]
    rcases h with h | h
    · omega
    · have := ih h; omega

theorem one_testBit (n : Nat) : Nat.testBit 1 n = decide (n = 0) := by
  cases n with
  | zero => rfl
  | succ n => simp [Nat.testBit_succ]

theorem testBit_or_one (b k i : Nat) : (b ||| 1 <<< k).testBit i = true ↔ (b.testBit i = true ∨ i = k) := by
  simp only [Nat.testBit_or, Nat.testBit_shiftLeft, Bool.or_eq_true, Bool.and_eq_true, decide_eq_true_eq]
  constructor
  · rintro (h | ⟨h, h2⟩)
    · exact Or.inl h
    · right
      rw [one_testBit] at h2
      simp at h2; omega
  · rintro (h | h)
    · exact Or.inl h
    · right; subst h; simp

theorem setBits_spec (x : Nat) (xs : List Nat) (b i : Nat) :
    (setBits b ((x :: xs).length - 1 + (x :: xs).sum : Nat) (x :: xs)).testBit i = true ↔
      (b.testBit i = true ∨ InBits xs i) := by
  induction xs generalizing x b with
  | nil =>
    rw [setBits, setBits]
    have e : ((([x].length - 1 + [x].sum : Nat) : Int) - ((x : Int) + 1)) = -1 := by simp; omega
    simp only [e, InBits, or_false]
    rw [if_neg (by omega)]
  | cons y ys ih =>
    rw [setBits]
    have e : (((x :: y :: ys).length - 1 + (x :: y :: ys).sum : Nat) : Int) - ((x : Int) + 1) =
        (((y :: ys).length - 1 + (y :: ys).sum : Nat) : Int) := by
      simp only [List.length_cons, List.sum_cons]; omega
    simp only [e]
    rw [if_pos (by omega), ih y, testBit_or_one]
    simp only [InBits, Int.toNat_natCast, List.length_cons, List.sum_cons, or_assoc]
    constructor
    · rintro (h | h | h)
      · exact Or.inl h
      · exact Or.inr (Or.inl (by omega))
      · exact Or.inr (Or.inr h)
    · rintro (h | h | h)
      · exact Or.inl h
      · exact Or.inr (Or.inl (by omega))
      · exact Or.inr (Or.inr h)

theorem gnubgF_zero (b n : Nat) (h : ∀ i < n, b.testBit i = false) : gnubgF b n 0 = .ok 0 := by
  induction n with
  | zero => unfold gnubgF; simp
  | succ n ih =>
    unfold gnubgF
    rw [if_neg (by omega), if_neg (by omega)]
    simp only [h n (by omega), Bool.false_eq_true, if_false]
    exact ih (fun i hi => h i (by omega))

theorem gnubgF_rank (t : List Nat) (b c : Nat) (hs : t.sum ≤ c)
    (h : ∀ i < t.length + c, b.testBit i = true ↔ InBits t i) :
    gnubgF b (t.length + c) t.length = .ok (rank t c) := by
  induction t generalizing c with
  | nil =>
    have := gnubgF_zero b (0 + c) (by
      intro i hi
      have := h i hi
      simp only [InBits, iff_false, Bool.not_eq_true] at this
      exact this)
    simpa [rank] using this
  | cons x xs ih =>
    simp only [List.sum_cons, List.length_cons] at hs h ⊢
    induction c with
    | zero =>
      rw [rank_zero]; unfold gnubgF
      rw [if_neg (by omega), if_pos (by omega)]
    | succ c ihc =>
      unfold gnubgF
      rw [if_neg (by omega), if_neg (by omega)]
      rw [show xs.length + 1 + (c + 1) = (xs.length + (c + 1)) + 1 by omega]
      simp only
      by_cases h1 : x + xs.sum = c + 1
      · rw [if_pos ((h _ (by omega)).2 (Or.inl (by omega))),
          show (((xs.length + 1 : Nat) : Int) - 1) = (xs.length : Int) by omega,
          ih (c + 1) (by omega), rank_top h1]
        · simp [bind, Except.bind, pure, Except.pure]
        · intro i hi
          rw [h i (by omega)]
          simp only [InBits]
          constructor
          · rintro (hh | hh)
            · omega
            · exact hh
          · exact Or.inr
      · rw [if_neg, show xs.length + (c + 1) = xs.length + 1 + c by omega,
          ihc (by omega) (fun i hi => h i (by omega)), rank_below (by omega)]
        intro hb
        have := inBits_lt ((h _ (by omega)).1 hb)
        simp only [List.length_cons, List.sum_cons] at this
        omega

theorem onesideIndex_eq (t : List Nat) (p c : Nat) (hp : 1 ≤ p) (hl : p ≤ t.length) (hs : (t.take p).sum ≤ c) :
    onesideIndex t p c = .ok (rank (t.take p) c) := by
  unfold onesideIndex
  rw [if_neg (by omega)]
  have hlen : (t.take p).length = p := by simp; omega
  simp only [foldl_add_eq, Nat.zero_add]
  rw [if_neg (by omega)]
  revert hlen hs
  generalize t.take p = u
  intro hs hlen
  subst hlen
  cases u with
  | nil => simp at hp
  | cons x xs =>
    have e : (((x :: xs).length : Int) - 1 + ((x :: xs).sum : Nat)) =
        (((x :: xs).length - 1 + (x :: xs).sum : Nat) : Int) := by
      simp only [List.length_cons, List.sum_cons]; omega
    rw [e]
    apply gnubgF_rank _ _ _ hs
    intro i _
    rw [setBits_spec]
    simp only [InBits, List.length_cons, List.sum_cons, Int.toNat_natCast, Nat.testBit_shiftLeft,
      Bool.and_eq_true, decide_eq_true_eq]
    constructor
    · rintro (⟨h1, h2⟩ | h)
      · left
        rw [one_testBit] at h2
        simp at h2; omega
      · exact Or.inr h
    · rintro (h | h)
      · left
        subst h
        refine ⟨by omega, ?_⟩
        rw [one_testBit]; simp; omega
      · exact Or.inr h

theorem rawreadLoop_spec (datalen fuel : Nat) (plan rest buf : List Nat)
    (hf : datalen - buf.length < fuel) :
    rawreadLoop datalen fuel plan rest buf =
      if datalen ≤ buf.length + rest.length then .ok ((buf ++ rest).take datalen) else .error .indexError := by
  induction fuel generalizing plan rest buf with
  | zero => omega
  | succ fuel ih =>
    rw [rawreadLoop]
    split
    · next hlt =>
      have hk : ∃ k, readSize datalen plan = k ∧ 1 ≤ k ∧ k ≤ datalen := by
        refine ⟨_, rfl, ?_, ?_⟩ <;> unfold readSize <;> split <;> omega
      obtain ⟨k, hk1, hk2, hk3⟩ := hk
      rw [hk1]
      cases rest with
      | nil =>
        simp only [List.take_nil, ne_eq, not_true_eq_false, if_false, List.length_nil]
        rw [if_neg (by omega)]
      | cons x xs =>
        have hne : List.take k (x :: xs) ≠ [] := by
          intro h
          have := congrArg List.length h
          simp at this
          omega
        have hlen : (List.take k (x :: xs)).length + (List.drop k (x :: xs)).length = (x :: xs).length := by
          rw [← List.length_append, List.take_append_drop]
        have hpos : 0 < (List.take k (x :: xs)).length := List.length_pos_iff.2 hne
        rw [if_pos hne, ih _ _ _ (by rw [List.length_append]; omega), List.append_assoc,
          List.take_append_drop, List.length_append]
        have e : buf.length + (List.take k (x :: xs)).length + (List.drop k (x :: xs)).length =
          buf.length + (x :: xs).length := by omega
        rw [e]
    · next hlt =>
      rw [if_pos (by omega), List.take_append_of_le_length (by omega)]

theorem backwardLoop_down (t : List Nat) (x : Nat) (n : Nat) (hx : 0 < x) (m fuel : Nat) (hm : m ≤ n)
    (hf : m < fuel) :
    backwardLoop (t ++ x :: List.replicate n 0) fuel ((t.length + m : Nat) : Int) = .ok (t.length + 1) := by
  induction m generalizing fuel with
  | zero =>
    obtain ⟨fuel, rfl⟩ : ∃ f, fuel = f + 1 := ⟨fuel - 1, by omega⟩
    rw [backwardLoop, pyGet_nat (by simp)]
    simp only [Nat.add_zero, List.getElem_append_right (Nat.le_refl _), Nat.sub_self, List.getElem_cons_zero]
    rw [if_neg (by omega)]
  | succ m ih =>
    obtain ⟨fuel, rfl⟩ : ∃ f, fuel = f + 1 := ⟨fuel - 1, by omega⟩
    rw [backwardLoop, pyGet_nat (by simp; omega)]
    have e : (t ++ x :: List.replicate n 0)[t.length + (m + 1)]'(by simp; omega) = 0 := by
      rw [List.getElem_append_right (by omega)]
      simp
    simp only [e, if_true]
    rw [show ((t.length + (m + 1) : Nat) : Int) - 1 = ((t.length + m : Nat) : Int) by omega]
    exact ih fuel (by omega) (by omega)

end Bglib
