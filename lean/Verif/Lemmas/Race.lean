import Verif.Spec.Race
import Verif.Lemmas.Course
/-
Sums over the places of a row.
-/
namespace Bglib
open Spec

theorem sum_range_congr {f g : Nat → Int} (n : Nat) (h : ∀ i < n, f i = g i) :
    ((List.range n).map f).sum = ((List.range n).map g).sum := by
  induction n with
  | zero => rfl
  | succ n ih =>
    simp only [List.range_succ, List.map_append, List.sum_append, List.map_cons, List.map_nil, List.sum_cons, List.sum_nil]
    rw [ih (fun i hi => h i (by omega)), h n (by omega)]

theorem sum_range_add (f g : Nat → Int) (n : Nat) :
    ((List.range n).map fun i => f i + g i).sum = ((List.range n).map f).sum + ((List.range n).map g).sum := by
  induction n with
  | zero => rfl
  | succ n ih =>
    simp only [List.range_succ, List.map_append, List.sum_append, List.map_cons, List.map_nil, List.sum_cons, List.sum_nil]
    rw [ih]; omega

theorem sum_range_neg (f : Nat → Int) (n : Nat) :
    ((List.range n).map fun i => - f i).sum = - ((List.range n).map f).sum := by
  induction n with
  | zero => rfl
  | succ n ih =>
    simp only [List.range_succ, List.map_append, List.sum_append, List.map_cons, List.map_nil, List.sum_cons, List.sum_nil]
    rw [ih]; omega

theorem sum_range_le {f g : Nat → Int} (n : Nat) (h : ∀ i < n, f i ≤ g i) :
    ((List.range n).map f).sum ≤ ((List.range n).map g).sum := by
  induction n with
  | zero => simp
  | succ n ih =>
    simp only [List.range_succ, List.map_append, List.sum_append, List.map_cons, List.map_nil, List.sum_cons, List.sum_nil]
    have := ih (fun i hi => h i (by omega))
    have := h n (by omega)
    omega

/-- One chequer on place `s` counts `s + 1`; off the board nothing. -/
theorem sum_one (s : Int) (h0 : -1 ≤ s) (h1 : s ≤ 24) :
    ((List.range 25).map fun (i : Nat) => ((i : Int) + 1) * (if (i : Int) = s then 1 else 0)).sum = s + 1 := by
  have : ∀ k : Fin 26, ((List.range 25).map fun (i : Nat) => ((i : Int) + 1) * (if (i : Int) = (k.val : Int) - 1 then 1 else 0)).sum
      = (k.val : Int) - 1 + 1 := by decide +kernel
  have := this ⟨(s + 1).toNat, by omega⟩
  simp only [show (((s + 1).toNat : Nat) : Int) - 1 = s by omega] at this
  exact this

/-- Two changed places change the pip count by their pips. -/
theorem pips_change {r r' : List Int} {s d : Int} {on : Prop} [Decidable on] (hs : on → -1 ≤ s ∧ s ≤ 24) (hd : on → -1 ≤ d ∧ d ≤ 24)
    (h : ∀ i < 25, cnt r' i = cnt r i - (if on ∧ (i : Int) = s then 1 else 0) + (if on ∧ (i : Int) = d then 1 else 0)) :
    pips r' = pips r + if on then d - s else 0 := by
  by_cases c : on
  · have hs := hs c; have hd := hd c
    simp only [c, true_and, if_true] at h ⊢
    have e : pips r' = ((List.range 25).map fun (i : Nat) => ((i : Int) + 1) * cnt r i
        + (-(((i : Int) + 1) * (if (i : Int) = s then 1 else 0)) + ((i : Int) + 1) * (if (i : Int) = d then 1 else 0))).sum := by
      refine sum_range_congr 25 fun i hi => ?_
      rw [h i hi]
      split <;> split <;> simp [Int.mul_add, Int.mul_sub] <;> omega
    rw [e, sum_range_add, sum_range_add, sum_range_neg, sum_one s hs.1 hs.2, sum_one d hd.1 hd.2]
    unfold pips; omega
  · simp only [c, false_and, if_false, Int.sub_zero, Int.add_zero] at h ⊢
    exact sum_range_congr 25 fun i hi => by rw [h i hi]

theorem pips_step {b b' : Board} {pm : PartialMove} (hs : StepTo b pm b') :
    pips (mine b') = pips (mine b) - gone pm ∧ pips (theirs b') = pips (theirs b) + lost pm := by
  have hb : 0 ≤ pm.src ∧ pm.src ≤ 24 ∧ -1 ≤ pm.dest ∧ pm.dest ≤ 24 := by
    rcases hs.legal with ⟨a1, a2, a3, a4, a5, _⟩ | ⟨hd, _, a1, a2, a3, a4, _⟩ <;> omega
  constructor
  · have := pips_change (r := mine b) (r' := mine b') (s := pm.src) (d := pm.dest) (on := True) (fun _ => by omega) (fun _ => by omega) (by
      intro i hi
      rw [hs.mover i hi]; simp [moverAfter])
    simp only [if_true] at this
    unfold gone; omega
  · have hd : pm.isHitting = true → 0 ≤ pm.dest ∧ pm.dest ≤ 23 := by
      intro hh
      rcases hs.legal with ⟨a1, a2, a3, a4, a5, _⟩ | ⟨_, h, _⟩
      · omega
      · rw [h] at hh; simp at hh
    have := pips_change (r := theirs b) (r' := theirs b') (s := 23 - pm.dest) (d := 24) (on := pm.isHitting = true)
      (fun c => by have := hd c; omega) (fun _ => by omega) (by
      intro i hi
      rw [hs.other i hi]
      simp only [otherAfter, show ((i : Int) = 24) ↔ (i = 24) by omega])
    rw [this]
    unfold lost
    split <;> omega

theorem gone_step {m t : List Int} {pm : PartialMove} (h : LegalStep m t pm.die pm.src pm.dest pm.isHitting) :
    1 ≤ gone pm ∧ gone pm ≤ pm.die ∧ (pm.dest ≠ -1 → gone pm = pm.die) := by
  unfold gone
  rcases h with ⟨a1, a2, a3, a4, a5, _⟩ | ⟨hd, _, a1, a2, a3, a4, _, _, a5⟩
  · omega
  · refine ⟨by omega, ?_, fun c => absurd hd c⟩
    rcases a5 with h | ⟨h, _⟩ <;> omega

theorem lost_step {m t : List Int} {pm : PartialMove} (h : LegalStep m t pm.die pm.src pm.dest pm.isHitting) :
    0 ≤ lost pm ∧ lost pm ≤ 24 ∧ (lost pm = 0 ↔ pm.isHitting = false) := by
  unfold lost
  rcases h with ⟨a1, a2, a3, a4, a5, _⟩ | ⟨hd, hh, _⟩
  · cases pm.isHitting <;> simp <;> omega
  · rw [hh]; simp

theorem pips_play {b b' : Board} {pms : List PartialMove} (h : PlayTo b pms b') :
    pips (mine b') = pips (mine b) - (pms.map gone).sum ∧ pips (theirs b') = pips (theirs b) + (pms.map lost).sum ∧
      (pms.length : Int) ≤ (pms.map gone).sum ∧ (pms.map gone).sum ≤ (pms.map (·.die)).sum ∧
      ((∀ pm ∈ pms, pm.dest ≠ -1) → (pms.map gone).sum = (pms.map (·.die)).sum) := by
  induction h with
  | nil b => simp
  | @cons b b1 b2 pm pms hs _ ih =>
    have h1 := pips_step hs
    have h2 := gone_step hs.legal
    simp only [List.map_cons, List.sum_cons, List.length_cons]
    refine ⟨by omega, by omega, by omega, by omega, fun hq => ?_⟩
    rw [h2.2.2 (hq pm (by simp)), ih.2.2.2.2 fun p hp => hq p (by simp [hp])]

theorem row_total_range (r : List Int) (k : Nat) (h : r.length = k) : total r = ((List.range k).map fun i => cnt r i).sum := by
  subst h
  induction r with
  | nil => rfl
  | cons x r ih =>
    simp only [total, List.foldr_cons, List.length_cons, List.range_succ_eq_map, List.map_cons, List.map_map, List.sum_cons]
    rw [show List.foldr (fun x1 x2 => x1 + x2) 0 r = total r from rfl, ih]
    rfl

theorem pips_bounds {r : List Int} (h : Row r) : total r ≤ pips r ∧ pips r ≤ 25 * total r := by
  rw [row_total_range r 25 h.1]
  constructor
  · refine sum_range_le 25 fun i hi => ?_
    have := h.2 i
    have : 1 * cnt r i ≤ ((i : Int) + 1) * cnt r i := Int.mul_le_mul_of_nonneg_right (by omega) this
    omega
  · have e : (25 : Int) * ((List.range 25).map fun i => cnt r i).sum = ((List.range 25).map fun i => 25 * cnt r i).sum := by
      have : ∀ k : Nat, (25 : Int) * ((List.range k).map fun i => cnt r i).sum = ((List.range k).map fun i => 25 * cnt r i).sum := by
        intro k
        induction k with
        | zero => simp
        | succ k ih =>
          simp only [List.range_succ, List.map_append, List.sum_append, List.map_cons, List.map_nil, List.sum_cons, List.sum_nil]
          rw [← ih]; omega
      exact this 25
    rw [e]
    refine sum_range_le 25 fun i hi => ?_
    exact Int.mul_le_mul_of_nonneg_right (by omega) (h.2 i)

end Bglib
