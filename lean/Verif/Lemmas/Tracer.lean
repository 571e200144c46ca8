import Verif.Lemmas.GnubgId
import Verif.Lemmas.Split
import Verif.Spec.Tracer
/-
Helper lemmas about tracers of recorded games.
-/
namespace Bglib
open Spec

theorem b64Char_ne_colon (v : Nat) : b64Char v ≠ ':' := by
  have h : ∀ v < 64, b64Char v ≠ ':' := by decide
  by_cases hv : v < 64
  · exact h v hv
  · unfold b64Char
    rw [if_neg (by omega), if_neg (by omega), if_neg (by omega), if_neg (by omega)]
    decide

theorem b64encode_no_colon (bs : List Nat) : ':' ∉ b64encode bs := by
  have h := fun v => Ne.symm (b64Char_ne_colon v)
  fun_induction b64encode bs with
  | case1 => simp
  | case2 a => simp [h]
  | case3 a b => simp [h]
  | case4 a b c rest ih => simp [h, ih]

theorem rstripPad_mem {c : Char} {s : Text} (h : c ∈ rstripPad s) : c ∈ s := by
  unfold rstripPad at h
  have h := (List.dropWhile_sublist _).subset (List.mem_reverse.1 h)
  exact List.mem_reverse.1 h

theorem encode_no_colon {b : Board} {pid mid : Text} (h : gnubgEncode b = .ok (pid, mid)) :
    ':' ∉ pid ∧ ':' ∉ mid := by
  have hp : ∀ xs, ':' ∉ encodePosition xs := fun xs hh => b64encode_no_colon _ (rstripPad_mem hh)
  have hm : ∀ d, ':' ∉ encodeMatch d := fun d hh => b64encode_no_colon _ (rstripPad_mem hh)
  unfold gnubgEncode at h
  simp only at h
  split at h
  · simp only [Except.ok.injEq, Prod.mk.injEq] at h
    rw [← h.1, ← h.2]; exact ⟨hp _, hm _⟩
  · split at h
    · simp only [Except.ok.injEq, Prod.mk.injEq] at h
      rw [← h.1, ← h.2]; exact ⟨hp _, hm _⟩
    · cases h

theorem splitChar_length (sep : Char) (s : Text) : (splitChar sep s).length = s.count sep + 1 := by
  induction s with
  | nil => rfl
  | cons c cs ih =>
    rw [splitChar]
    by_cases hc : c = sep
    · rw [if_pos hc, List.length_cons, ih, hc, List.count_cons_self]
    · rw [if_neg hc, List.count_cons_of_ne hc]
      cases hs : splitChar sep cs with
      | nil => exact absurd hs (splitChar_ne_nil _ _)
      | cons f fs => rw [hs] at ih; simpa using ih

theorem kind_iff (a : Text) : a ∈ Tracer.knownActions ↔ Kind a := by
  simp [Tracer.knownActions, Kind]

theorem calls_eq (t : Tracer) (cs : List Tracer.Call) : t.calls cs = t := by
  induction cs with
  | nil => rfl
  | cons c cs ih =>
    rw [Tracer.calls]
    have : (t.call c).st = t := by cases c <;> rfl
    rw [this, ih]

theorem setAction_iff (b : Board) (d : ActionDict) :
    ((Tracer.ofBoard b).setAction d = .ok () ↔ Entry b d) ∧
    (¬ Entry b d → (Tracer.ofBoard b).setAction d = .error .assertion) := by
  obtain ⟨a, p, bd⟩ := d
  unfold Tracer.setAction Tracer.ofBoard Entry letterOf
  simp only [ne_eq, not_true_eq_false, if_false]
  cases a with
  | none => simp
  | some a =>
    by_cases ha : a ∈ Tracer.knownActions
    · have hk := (kind_iff a).1 ha
      have hk' : ∃ x, some a = some x ∧ Kind x := ⟨a, rfl, hk⟩
      cases p with
      | none => simp [ha]
      | some p =>
        cases bd with
        | none => simp [ha]
        | some bd =>
          simp only [ha, not_true_eq_false, if_false, reduceCtorEq, hk', true_and, not_false_eq_true]
          unfold YOU HIM
          by_cases h0 : b.onAction = 0
          · simp only [h0, if_true]
            by_cases hx : p = t!"X"
            · simp [hx]
            · have : (0 : Int) ≠ 1 := by decide
              simp [hx]
          · by_cases h1 : b.onAction = 1
            · simp only [h1, if_true, Int.one_ne_zero, if_false, Option.some.injEq]
              by_cases hx : p = t!"X"
              · simp [hx]
              · simp [hx]
            · simp [h0, h1]
    · have hk : ¬ Kind a := fun h => ha ((kind_iff a).2 h)
      have hk' : ¬ ∃ x, some a = some x ∧ Kind x := by
        rintro ⟨x, hx, h⟩; cases hx; exact hk h
      simp [ha, hk]

end Bglib
