import Verif.Spec.Document
import Verif.Lemmas.WikiLinks
/-
How lines of plain text and marks are taken apart.
-/
namespace Bglib

/-- Whether a pattern may match without reading anything. -/
def Re.nul : Re → Bool
  | .eps | .bol | .eol => true
  | .set _ => false
  | .seq a b => a.nul && b.nul
  | .alt a b => a.nul || b.nul
  | .rep a min _ => min = 0 || a.nul
  | .group _ a => a.nul

/-- Whether a pattern may read `c` first. -/
def Re.starts : Re → Char → Bool
  | .eps, _ | .bol, _ | .eol, _ => false
  | .set s, c => s.mem c
  | .seq a b, c => a.starts c || (a.nul && b.starts c)
  | .alt a b, c => a.starts c || b.starts c
  | .rep a _ _, c => a.starts c
  | .group _ a, c => a.starts c

theorem repAll_begins {f : Place → List Place} {P : Char → Prop} {N : Prop} {c : Char}
    (hf : ∀ p r, p.rest = c :: r → ∀ q ∈ f p, (q.rest = p.rest ∧ N) ∨ P c) (n min : Nat) (p : Place) (r : Text)
    (hp : p.rest = c :: r) (q : Place) (hq : q ∈ repAll f n min p) : (q.rest = p.rest ∧ (min = 0 ∨ N)) ∨ P c := by
  induction n generalizing min p with
  | zero =>
    simp only [repAll] at hq
    split at hq
    · rename_i h; rw [List.mem_singleton] at hq; subst hq; exact Or.inl ⟨rfl, Or.inl h⟩
    · cases hq
  | succ n ih =>
    simp only [repAll, List.mem_append, List.mem_flatMap, List.mem_filter] at hq
    rcases hq with ⟨x, ⟨hx, hl⟩, _⟩ | hq
    · rcases hf p r hp x hx with ⟨e, _⟩ | h
      · simp [e] at hl
      · exact Or.inr h
    · split at hq
      · rename_i h; rw [List.mem_singleton] at hq; subst hq; exact Or.inl ⟨rfl, Or.inl h⟩
      · cases hq

theorem all_begins (r : Re) (c : Char) (t : Text) (p : Place) (hp : p.rest = c :: t) (q : Place) (hq : q ∈ r.all p) :
    (q.rest = p.rest ∧ r.nul = true) ∨ r.starts c = true := by
  induction r generalizing p q t with
  | eps => simp only [Re.all, List.mem_singleton] at hq; subst hq; exact Or.inl ⟨rfl, rfl⟩
  | bol => obtain ⟨_, e⟩ := mem_bol hq; subst e; exact Or.inl ⟨rfl, rfl⟩
  | eol =>
    simp only [Re.all] at hq
    split at hq
    · rw [List.mem_singleton] at hq; subst hq; exact Or.inl ⟨rfl, rfl⟩
    · cases hq
  | set s =>
    obtain ⟨d, h2, h1, _⟩ := mem_set hq
    rw [hp] at h1
    obtain ⟨e, _⟩ := List.cons.inj h1
    exact Or.inr (by rw [Re.starts, e]; exact h2)
  | seq a b iha ihb =>
    obtain ⟨m, h1, h2⟩ := mem_seq hq
    rcases iha t p hp m h1 with ⟨e, n⟩ | h
    · rcases ihb t m (e.trans hp) q h2 with ⟨e', n'⟩ | h
      · exact Or.inl ⟨e'.trans e, by simp [Re.nul, n, n']⟩
      · exact Or.inr (by simp [Re.starts, n, h])
    · exact Or.inr (by simp [Re.starts, h])
  | alt a b iha ihb =>
    rcases mem_alt hq with h | h
    · rcases iha t p hp q h with ⟨e, n⟩ | h
      · exact Or.inl ⟨e, by simp [Re.nul, n]⟩
      · exact Or.inr (by simp [Re.starts, h])
    · rcases ihb t p hp q h with ⟨e, n⟩ | h
      · exact Or.inl ⟨e, by simp [Re.nul, n]⟩
      · exact Or.inr (by simp [Re.starts, h])
  | rep a min max ih =>
    rcases repAll_begins (P := fun c => a.starts c = true) (N := a.nul = true)
      (fun p r hp q hq => ih r p hp q hq) _ min p t hp q hq with ⟨e, h⟩ | h
    · exact Or.inl ⟨e, by simpa [Re.nul] using h⟩
    · exact Or.inr h
  | group name a ih =>
    obtain ⟨m, _, h1, _, e⟩ := mem_group hq
    subst e
    exact ih t p hp m h1

/-- A pattern that must read something and cannot read `c` first does not match. -/
theorem all_nil (r : Re) (c : Char) (t : Text) (p : Place) (hp : p.rest = c :: t) (hn : r.nul = false)
    (hs : r.starts c = false) : r.all p = [] := by
  apply List.eq_nil_iff_forall_not_mem.2
  intro q hq
  rcases all_begins r c t p hp q hq with ⟨_, h⟩ | h
  · rw [hn] at h; cases h
  · rw [hs] at h; cases h

theorem firstPattern_filter {α : Type} (pats : List (α × Re)) (c : Char) (t : Text) (p : Place) (hp : p.rest = c :: t)
    (hn : (pats.all fun x => !x.2.nul) = true) :
    firstPattern pats p = firstPattern (pats.filter fun x => x.2.starts c) p := by
  induction pats with
  | nil => rfl
  | cons x xs ih =>
    obtain ⟨n, r⟩ := x
    rw [List.all_cons, Bool.and_eq_true] at hn
    have ih := ih hn.2
    cases hs : r.starts c with
    | true =>
      rw [List.filter_cons_of_pos (by exact hs)]
      simp only [firstPattern]
      cases r.all p with
      | nil => exact ih
      | cons _ _ => rfl
    | false =>
      rw [List.filter_cons_of_neg (by simp [hs])]
      simp only [firstPattern, all_nil r c t p hp (by simpa using hn.1) hs]
      exact ih

theorem firstPattern_skip {α : Type} (n : α) (r : Re) (rest : List (α × Re)) (p : Place) (h : r.all p = []) :
    firstPattern ((n, r) :: rest) p = firstPattern rest p := by
  simp only [firstPattern, h]

theorem firstPattern_skips {α : Type} (front rest : List (α × Re)) (p : Place) (h : ∀ x ∈ front, x.2.all p = []) :
    firstPattern (front ++ rest) p = firstPattern rest p := by
  induction front with
  | nil => rfl
  | cons x xs ih =>
    rw [List.cons_append, firstPattern_skip _ _ _ _ (h x (List.mem_cons_self ..)),
      ih fun y hy => h y (List.mem_cons_of_mem _ hy)]

/-- Every match reads a character between `lo` and `hi`. -/
def Re.must (lo hi : Char) : Re → Bool
  | .eps | .bol | .eol => false
  | .set s => !s.neg && s.ranges.all fun r => lo ≤ r.1 && r.2 ≤ hi
  | .seq a b => a.must lo hi || b.must lo hi
  | .alt a b => a.must lo hi && b.must lo hi
  | .rep a min _ => min ≠ 0 && a.must lo hi
  | .group _ a => a.must lo hi

theorem mem_ranges {s : CharSet} {c : Char} (hn : s.neg = false) (h : s.mem c = true) : ∃ r ∈ s.ranges, r.1 ≤ c ∧ c ≤ r.2 := by
  simpa [CharSet.mem, hn] using h

theorem ranges_mem {s : CharSet} {c : Char} (hn : s.neg = false) (h : ∃ r ∈ s.ranges, r.1 ≤ c ∧ c ≤ r.2) : s.mem c = true := by
  simpa [CharSet.mem, hn] using h

theorem lang_must (lo hi : Char) (r : Re) (s : Text) (h : r.lang s) (hm : r.must lo hi = true) : ∃ c ∈ s, lo ≤ c ∧ c ≤ hi := by
  induction r generalizing s with
  | eps => cases hm
  | bol => cases hm
  | eol => cases hm
  | set cs =>
    obtain ⟨c, hc, e⟩ := h
    simp only [Re.must, Bool.and_eq_true, Bool.not_eq_true', List.all_eq_true, decide_eq_true_eq] at hm
    obtain ⟨r, hr, h1, h2⟩ := mem_ranges hm.1 hc
    obtain ⟨h3, h4⟩ := hm.2 r hr
    subst e
    exact ⟨c, List.mem_cons_self .., Char.le_trans h3 h1, Char.le_trans h2 h4⟩
  | seq a b iha ihb =>
    obtain ⟨x, y, h1, h2, e⟩ := h
    subst e
    simp only [Re.must, Bool.or_eq_true] at hm
    rcases hm with hm | hm
    · obtain ⟨c, hc, k⟩ := iha x h1 hm; exact ⟨c, List.mem_append_left _ hc, k⟩
    · obtain ⟨c, hc, k⟩ := ihb y h2 hm; exact ⟨c, List.mem_append_right _ hc, k⟩
  | alt a b iha ihb =>
    simp only [Re.must, Bool.and_eq_true] at hm
    rcases h with h | h
    · exact iha s h hm.1
    · exact ihb s h hm.2
  | rep a min max ih =>
    simp only [Re.must, Bool.and_eq_true, decide_eq_true_eq] at hm
    obtain ⟨l, h1, _, h2, e⟩ := h
    cases l with
    | nil => exact absurd (Nat.le_zero.1 h1) hm.1
    | cons x l =>
      obtain ⟨c, hc, k⟩ := ih x (h2 x (List.mem_cons_self ..)) hm.2
      subst e
      exact ⟨c, by simp [hc], k⟩
  | group name a ih => exact ih s h hm

/-- What can be read first is in the ranges. -/
def Re.within (R : List (Char × Char)) : Re → Bool
  | .eps | .bol | .eol => true
  | .set s => !s.neg && s.ranges.all fun r => R.any fun x => x.1 ≤ r.1 && r.2 ≤ x.2
  | .seq a b => a.within R && (!a.nul || b.within R)
  | .alt a b => a.within R && b.within R
  | .rep a _ _ => a.within R
  | .group _ a => a.within R

theorem starts_within (R : List (Char × Char)) (r : Re) (c : Char) (h : r.starts c = true) (hw : r.within R = true) :
    ∃ x ∈ R, x.1 ≤ c ∧ c ≤ x.2 := by
  induction r with
  | eps => cases h
  | bol => cases h
  | eol => cases h
  | set s =>
    simp only [Re.within, Bool.and_eq_true, Bool.not_eq_true', List.all_eq_true, List.any_eq_true, decide_eq_true_eq] at hw
    obtain ⟨r, hr, h1, h2⟩ := mem_ranges hw.1 h
    obtain ⟨x, hx, h3, h4⟩ := hw.2 r hr
    exact ⟨x, hx, Char.le_trans h3 h1, Char.le_trans h2 h4⟩
  | seq a b iha ihb =>
    simp only [Re.within, Bool.and_eq_true, Bool.or_eq_true, Bool.not_eq_true'] at hw
    simp only [Re.starts, Bool.and_eq_true, Bool.or_eq_true] at h
    rcases h with h | ⟨hn, h⟩
    · exact iha h hw.1
    · rcases hw.2 with k | k
      · rw [hn] at k; cases k
      · exact ihb h k
  | alt a b iha ihb =>
    simp only [Re.within, Bool.and_eq_true] at hw
    simp only [Re.starts, Bool.or_eq_true] at h
    rcases h with h | h
    · exact iha h hw.1
    · exact ihb h hw.2
  | rep a min max ih => exact ih h hw
  | group name a ih => exact ih h hw

namespace Doc
open Spec Spec.Document

/-- A line without digits and slashes is never a link. -/
def Quiet (t : Text) : Prop := ∀ c ∈ t, ¬ ('/' ≤ c ∧ c ≤ '9')

/-- All the patterns but the last. -/
def specials : List (Pat × Re) := linePatterns.dropLast

theorem linePatterns_split : linePatterns = specials ++ [(.rest, .set ⟨true, [('\n', '\n')]⟩)] := rfl

/-- The characters that are not plain. -/
def marks : List (Char × Char) := [('\n', '\n'), ('\r', '\r'), ('!', '!'), ('#', '#'), ('&', '\''), (',', ','), ('/', ':'), ('<', '?'),
    ('A', 'Z'), ('[', '['), ('^', '`'), ('{', '~')]

theorem plain_not {c : Char} (h : Document.plain c = true) : ¬ ∃ x ∈ marks, x.1 ≤ c ∧ c ≤ x.2 := by
  intro k
  have : CharSet.mem ⟨false, marks⟩ c = true := ranges_mem rfl k
  simp only [Document.plain, CharSet.mem, marks] at h this
  revert h this
  generalize List.any _ _ = b
  cases b <;> decide

theorem specials_check : (specials.all fun x => !x.2.nul && (x.2.must '/' '9' || x.2.within ((' ', ' ') :: marks))) = true := by
  decide +kernel

theorem plain_first (start : Bool) (c : Char) (t : Text) (hc : Document.plain c = true) (hs : start = true → c ≠ ' ')
    (hq : Quiet (c :: t)) :
    firstPattern linePatterns ⟨start, c :: t, []⟩ = some (.rest, [c], [], ⟨false, t, []⟩) := by
  have hrest : firstPattern [(Pat.rest, Re.set ⟨true, [('\n', '\n')]⟩)] ⟨start, c :: t, []⟩ = some (.rest, [c], [], ⟨false, t, []⟩) := by
    have hn : CharSet.mem ⟨true, [('\n', '\n')]⟩ c = true := by
      cases hm : CharSet.mem ⟨true, [('\n', '\n')]⟩ c with
      | true => rfl
      | false =>
        exfalso
        refine plain_not hc ⟨('\n', '\n'), by simp [marks], ?_⟩
        simpa [CharSet.mem] using hm
    simp only [firstPattern, Re.all, hn, if_true, between]
    simp
  by_cases hsp : c = ' '
  · subst hsp
    have hs : start = false := by cases start with
      | true => exact absurd rfl (hs rfl)
      | false => rfl
    subst hs
    rw [firstPattern_filter linePatterns ' ' t _ rfl (by decide +kernel)]
    rw [show (linePatterns.filter fun x => x.2.starts ' ') = [(.itemize, itemizeRe), (.quote, .seq .bol (.rep (.ch ' ') 2 none)),
      (.rest, .set ⟨true, [('\n', '\n')]⟩)] by decide +kernel]
    rw [firstPattern_skip _ _ _ _ (by rfl), firstPattern_skip _ _ _ _ (by rfl)]
    exact hrest
  · rw [linePatterns_split, firstPattern_skips, hrest]
    intro x hx
    have hk := List.all_eq_true.1 specials_check x hx
    simp only [Bool.and_eq_true, Bool.not_eq_true', Bool.or_eq_true] at hk
    rcases hk.2 with h | h
    · apply List.eq_nil_iff_forall_not_mem.2
      intro q hq'
      obtain ⟨s, h1, h2⟩ := all_lang _ _ _ hq'
      obtain ⟨d, hd, h3⟩ := lang_must _ _ _ _ h2 h
      refine hq d ?_ h3
      have : (⟨start, c :: t, []⟩ : Place).rest = c :: t := rfl
      rw [← this, h1]
      exact List.mem_append_left _ hd
    · refine all_nil _ c t _ rfl hk.1 ?_
      cases hs' : x.2.starts c with
      | false => rfl
      | true =>
        exfalso
        obtain ⟨y, hy, h1, h2⟩ := starts_within _ _ _ hs' h
        rcases List.mem_cons.1 hy with e | hy
        · subst e; exact hsp (Char.le_antisymm h2 h1)
        · exact plain_not hc ⟨y, hy, h1, h2⟩

end Doc
end Bglib
