import Verif.Lemmas.Append
import Verif.Spec.Turn
namespace Bglib
open Spec Factory

theorem fromSource_ok {b : Board} (hv : Valid b) (a : Avail) {src : Int} (h0 : 0 ≤ src) (h1 : src ≤ 24) :
    ∃ r, fromSource b a src = .ok r ∧ (r.isSome = true ↔ ∃ e ∈ diceLeft a, ∃ dest hit,
      LegalStep (mine b) (theirs b) e src dest hit) := by
  obtain ⟨r, hr, h2, h3⟩ := sourceLoop_spec hv h0 h1 (a.len + 1) a (by omega)
  refine ⟨r, hr, ?_⟩
  cases r with
  | none =>
    simp only [Option.isSome_none, Bool.false_eq_true, false_iff]
    rintro ⟨e, he, dest, hit, hl⟩
    exact h3 rfl e ((mem_diceLeft a e).1 he) dest hit hl
  | some pm =>
    obtain ⟨e1, e2, e3, _⟩ := h2 pm rfl
    simp only [Option.isSome_some, true_iff]
    rw [e1] at e3
    exact ⟨pm.die, (mem_diceLeft a _).2 e2, pm.dest, pm.isHitting, e3⟩

theorem exists_mem_cons {α : Type} {p : α → Prop} {x : α} {l : List α} :
    (∃ y ∈ x :: l, p y) ↔ p x ∨ ∃ y ∈ l, p y := by simp

theorem anySingle_spec {b : Board} (hv : Valid b) (a : Avail) {ns : List Int}
    (h : ∀ n ∈ ns, 0 ≤ n ∧ n ≤ 24) :
    ∃ r, anySingle b a ns = .ok r ∧ (r = true ↔ ∃ n ∈ ns, ∃ e ∈ diceLeft a, ∃ dest hit,
      LegalStep (mine b) (theirs b) e n dest hit) := by
  induction ns with
  | nil => exact ⟨false, rfl, by simp⟩
  | cons n ns ih =>
    obtain ⟨r, hr, hiff⟩ := ih (fun k hk => h k (by simp [hk]))
    have hn := h n (by simp)
    unfold anySingle
    rw [hasChequer_eq hv.shape hn.1 hn.2]
    by_cases hm : movable (mine b) n
    · obtain ⟨q, hq, hqi⟩ := fromSource_ok hv a hn.1 hn.2
      simp only [hm, decide_true, hq]
      cases q with
      | none =>
        refine ⟨r, hr, ?_⟩
        rw [hiff]
        simp only [exists_mem_cons]
        constructor
        · exact Or.inr
        · rintro (h | h)
          · exact absurd (hqi.2 h) (by simp)
          · exact h
      | some pm =>
        refine ⟨true, rfl, ?_⟩
        simp only [true_iff, exists_mem_cons]
        exact Or.inl (hqi.1 rfl)
    · simp only [hm, decide_false]
      refine ⟨r, hr, ?_⟩
      rw [hiff]
      simp only [exists_mem_cons]
      constructor
      · exact Or.inr
      · rintro (⟨e, _, d, hit, hl⟩ | h)
        · exact absurd (legalStep_movable hl).2.2 hm
        · exact h

/-- With nothing to move from any of the points, no two-dice play is found. -/
theorem anyDouble_none {b : Board} (hv : Valid b) (a : Avail) {ns : List Int}
    (h : ∀ n ∈ ns, 0 ≤ n ∧ n ≤ 23)
    (hno : ∀ n ∈ ns, ¬ ∃ e ∈ diceLeft a, ∃ dest hit, LegalStep (mine b) (theirs b) e n dest hit) :
    anyDouble b a ns = ⟨b, .ok false⟩ := by
  have key : ∀ src, 0 ≤ src → src ≤ 23 →
      (¬ ∃ e ∈ diceLeft a, ∃ dest hit, LegalStep (mine b) (theirs b) e src dest hit) →
      ∀ ds : List Int, (∀ d ∈ ds, 0 ≤ d ∧ d < src) → anyDoubleTo b a src ds = ⟨b, .ok false⟩ := by
    intro src h0 h1 hn ds
    obtain ⟨r, hr, hri⟩ := fromSource_ok hv a h0 (by omega : src ≤ 24)
    have hrn : r = none := by
      cases r with
      | none => rfl
      | some x => exact absurd (hri.1 rfl) hn
    subst hrn
    induction ds with
    | nil => intro _; rfl
    | cons d ds ih =>
      intro hds
      have hd := hds d (by simp)
      have hpt : isPoint d = true := by simp [isPoint]; omega
      have ih' := ih (fun k hk => hds k (by simp [hk]))
      unfold anyDoubleTo
      rw [isOpen_eq hv.shape hpt, isHitting_eq hv.shape hpt]
      have hm : multiplePms b a src d = ⟨b, .ok none⟩ := by
        unfold multiplePms multiLoop
        rw [if_neg (by omega), hr]
      rw [hm]
      by_cases ho : cnt (theirs b) (23 - d).toNat < 2
      · simp only [ho, decide_true]; exact ih'
      · simp only [ho, decide_false]
        by_cases hh : cnt (theirs b) (23 - d).toNat = 1
        · simp only [hh, decide_true]; exact ih'
        · simp only [hh, decide_false]; exact ih'
  induction ns with
  | nil => rfl
  | cons n ns ih =>
    have hn := h n (by simp)
    have ih' := ih (fun k hk => h k (by simp [hk])) (fun k hk => hno k (by simp [hk]))
    unfold anyDouble
    rw [hasChequer_eq hv.shape hn.1 (by omega)]
    by_cases hm : movable (mine b) n
    · simp only [hm, decide_true]
      rw [key n hn.1 hn.2 (hno n (by simp)) _ (by intro d hd; rw [mem_pyRange] at hd; exact hd)]
      exact ih'
    · simp only [hm, decide_false]; exact ih'

end Bglib
