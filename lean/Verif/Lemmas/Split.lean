import Verif.Model.Xgid
import Verif.Lemmas.Text
import Verif.Spec.Encodings
/-
Helper lemmas: splitting joined fields.
-/
namespace Bglib
open Spec

theorem splitChar_ne_nil (sep : Char) (s : Text) : splitChar sep s ≠ [] := by
  cases s with
  | nil => simp [splitChar]
  | cons c cs =>
    rw [splitChar]
    split
    · simp
    · split <;> simp

theorem splitChar_none (sep : Char) (f : Text) (h : sep ∉ f) : splitChar sep f = [f] := by
  induction f with
  | nil => rfl
  | cons c cs ih =>
    have hc : c ≠ sep := fun e => h (by simp [e])
    rw [splitChar, if_neg hc, ih (fun e => h (List.mem_cons_of_mem _ e))]

theorem splitChar_append (sep : Char) (f rest : Text) (h : sep ∉ f) :
    splitChar sep (f ++ sep :: rest) = f :: splitChar sep rest := by
  induction f with
  | nil => simp [splitChar]
  | cons c cs ih =>
    have hc : c ≠ sep := fun e => h (by simp [e])
    rw [List.cons_append, splitChar, if_neg hc, ih (fun e => h (List.mem_cons_of_mem _ e))]

theorem splitChar_join (fs : List Text) (hne : fs ≠ []) (h : ∀ f ∈ fs, ':' ∉ f) :
    splitChar ':' (joinColon fs) = fs := by
  fun_induction joinColon fs with
  | case1 => exact absurd rfl hne
  | case2 f => exact splitChar_none _ _ (h f (by simp))
  | case3 f fs hfs ih =>
    rw [splitChar_append _ _ _ (h f (by simp)), ih (by intro e; exact hfs e)
      (fun g hg => h g (List.mem_cons_of_mem _ hg))]

theorem pyStr_no_colon (n : Int) : ':' ∉ pyStr n := by
  have hd : ∀ m : Nat, ':' ∉ decimal m := by
    intro m hm
    obtain ⟨d, hd, e⟩ := decimal_digits hm
    have : ∀ d, d < 10 → ':' ≠ digitChar d := by decide
    exact this d hd e
  unfold pyStr
  split
  · intro hm
    rcases List.mem_cons.1 hm with e | e
    · exact absurd e (by decide)
    · exact hd _ e
  · exact hd _

end Bglib
