import Verif.Model.Editor
import Verif.Spec.Rules
/-
Helper lemmas on rows of counts and on `moveRows`.
-/
namespace Bglib
open Spec

/-- `l[k] += d`. -/
def addAt (l : List Int) (k : Nat) (d : Int) : List Int := l.modify k (· + d)

@[simp] theorem addAt_length (l : List Int) (k : Nat) (d : Int) : (addAt l k d).length = l.length := by
  simp [addAt]

theorem cnt_addAt {l : List Int} {k : Nat} (d : Int) (i : Nat) (h : k < l.length) :
    cnt (addAt l k d) i = cnt l i + if i = k then d else 0 := by
  unfold cnt addAt
  by_cases hi : i < l.length
  · simp only [List.getD_eq_getElem?_getD, List.getElem?_modify]
    by_cases e : i = k
    · subst e; simp [hi]
    · have : ¬ k = i := fun h => e h.symm
      simp [e, this]
  · have : i ≠ k := by omega
    simp only [List.getD_eq_getElem?_getD, List.getElem?_modify]
    have h3 : ¬ k = i := fun h => this h.symm
    simp [this, h3]

theorem addAt_comm (l : List Int) (j k : Nat) (c d : Int) :
    addAt (addAt l j c) k d = addAt (addAt l k d) j c := by
  unfold addAt
  apply List.ext_getElem
  · simp
  · intro i h1 h2
    simp only [List.getElem_modify]
    split <;> split <;> omega

theorem addAt_cancel (l : List Int) (k : Nat) (d : Int) : addAt (addAt l k d) k (-d) = l := by
  unfold addAt
  apply List.ext_getElem
  · simp
  · intro i h1 h2
    simp only [List.getElem_modify]
    split <;> omega

theorem total_addAt {l : List Int} {k : Nat} (d : Int) (h : k < l.length) :
    total (addAt l k d) = total l + d := by
  unfold addAt total
  induction l generalizing k with
  | nil => simp at h
  | cons a l ih =>
    cases k with
    | zero => simp; omega
    | succ k =>
      simp only [List.length_cons, Nat.add_lt_add_iff_right] at h
      simp only [List.modify_succ_cons, List.foldr_cons, ih h]; omega

theorem pyAdd_addAt {l : List Int} {k : Nat} (d : Int) (h : k < l.length) :
    pyAdd l (k : Int) d = .ok (addAt l k d) := by
  rw [pyAdd_nat d h]
  congr 1
  unfold addAt
  apply List.ext_getElem
  · simp
  · intro i h1 h2
    simp only [List.getElem_modify, List.getElem_set]
    split
    · subst_vars; rfl
    · rfl

theorem pyAdd_int {l : List Int} {i : Int} (d : Int) (h0 : 0 ≤ i) (h : i < l.length) :
    pyAdd l i d = .ok (addAt l i.toNat d) := by
  obtain ⟨k, rfl⟩ := Int.eq_ofNat_of_zero_le h0
  simpa using pyAdd_addAt d (k := k) (by omega)

/-- Optional `addAt`: index `-1` (off the board) changes nothing. -/
def addOn (l : List Int) (i : Int) (d : Int) : List Int := if 0 ≤ i then addAt l i.toNat d else l

@[simp] theorem addOn_length (l : List Int) (i d : Int) : (addOn l i d).length = l.length := by
  unfold addOn; split <;> simp

theorem addOn_comm (l : List Int) (i j : Int) (c d : Int) :
    addOn (addOn l i c) j d = addOn (addOn l j d) i c := by
  unfold addOn; split <;> split <;> first | rfl | apply addAt_comm

theorem addOn_cancel (l : List Int) (i d : Int) : addOn (addOn l i d) i (-d) = l := by
  unfold addOn; split
  · apply addAt_cancel
  · rfl

theorem addOn_cancel' (l : List Int) (i : Int) {c d : Int} (h : c + d = 0) :
    addOn (addOn l i c) i d = l := by
  obtain rfl : d = -c := by omega
  exact addOn_cancel l i c

theorem cnt_addOn {l : List Int} {i : Int} (d : Int) (k : Nat) (h : i < l.length) :
    cnt (addOn l i d) k = cnt l k + if (k : Int) = i then d else 0 := by
  unfold addOn
  split
  · rw [cnt_addAt _ _ (by omega)]
    have : (k = i.toNat) ↔ ((k : Int) = i) := by omega
    simp only [this]
  · have : ¬ ((k : Int) = i) := by omega
    simp [this]

theorem total_addOn {l : List Int} {i : Int} (d : Int) (h : i < l.length) :
    total (addOn l i d) = total l + if 0 ≤ i then d else 0 := by
  unfold addOn
  split
  · rw [total_addAt _ (by omega)]
  · simp

/-- A movement whose ends are places of the board (or off), src ≠ dest. -/
def InBoard (pm : PartialMove) : Prop :=
  -1 ≤ pm.src ∧ pm.src ≤ 24 ∧ -1 ≤ pm.dest ∧ pm.dest ≤ 24 ∧ pm.src ≠ pm.dest

/-- The point on which a hit takes place: the lower end. -/
def hitPoint (pm : PartialMove) : Int := if pm.isUndo then pm.src else pm.dest

/-- +1: hit is undone, -1: hit is made, 0: no hit. -/
def hitDelta (pm : PartialMove) : Int := if pm.isHitting then (if pm.isUndo then 1 else -1) else 0

theorem addAt_zero (l : List Int) (k : Nat) : addAt l k 0 = l := by
  unfold addAt
  apply List.ext_getElem
  · simp
  · intro i h1 h2
    simp only [List.getElem_modify]
    split <;> omega

theorem addOn_zero (l : List Int) (k : Int) : addOn l k 0 = l := by
  unfold addOn; split
  · apply addAt_zero
  · rfl

theorem moveRows_eq {pm : PartialMove} {m h : List Int} (hp : InBoard pm) (lm : m.length = 25)
    (lh : h.length = 25) :
    Board.moveRows pm m h = .ok (addOn (addOn m pm.src (-1)) pm.dest 1,
      addOn (addOn h (23 - hitPoint pm) (hitDelta pm)) 24 (- hitDelta pm)) := by
  obtain ⟨h1, h2, h3, h4, h5⟩ := hp
  unfold Board.moveRows
  have e : ∀ (l : List Int) (i d : Int), l.length = 25 → i ≤ 24 → Board.addIfOn l i d = .ok (addOn l i d) := by
    intro l i d hl hi
    unfold Board.addIfOn OFF addOn
    by_cases c : 0 ≤ i
    · rw [if_pos (by omega), if_pos c, pyAdd_int _ c (by omega)]
    · rw [if_neg (by omega), if_neg c]
  rw [e _ _ _ lm h2]
  simp only [bind, Except.bind, pure, Except.pure]
  rw [e _ _ _ (by simpa using lm) h4]
  simp only []
  have add25 : ∀ (l : List Int) (i d : Int), l.length = 25 → 0 ≤ i → i ≤ 24 →
      pyAdd l i d = .ok (addOn l i d) := by
    intro l i d hl a c
    rw [pyAdd_int _ a (by omega), addOn, if_pos a]
  by_cases hh : pm.isHitting
  · by_cases hu : pm.isUndo
    · have hu' : pm.dest > pm.src := by simpa [PartialMove.isUndo] using hu
      simp only [hh, hu, if_true, hitPoint, hitDelta]
      rw [add25 _ _ _ lh (by unfold flipPoint; omega) (by unfold flipPoint; omega)]
      simp only []
      rw [add25 _ _ _ (by simpa using lh) (by unfold BAR; omega) (by unfold BAR; omega)]
      rfl
    · have hu' : ¬ pm.dest > pm.src := by simpa [PartialMove.isUndo] using hu
      simp only [hh, hu, if_true, hitPoint, hitDelta]
      simp only [Bool.false_eq_true, if_false]
      rw [add25 _ _ _ lh (by unfold flipPoint; omega) (by unfold flipPoint; omega)]
      simp only []
      rw [add25 _ _ _ (by simpa using lh) (by unfold BAR; omega) (by unfold BAR; omega)]
      rfl
  · simp only [hh, hitDelta]
    simp [addOn_zero]

end Bglib
