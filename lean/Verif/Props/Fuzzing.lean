import Verif.Spec.Fuzzing
import Verif.Props.Wiki
/-
C84: tests by chance report the texts that fail.
-/
namespace Bglib
open Spec Doc

/-- **C84** Whatever `random` answers, a gene has a text, of as many letters as asked for, and every such text is that
of a gene. -/
theorem C84_text (letters : List Text) (h : letters ≠ []) :
    (∀ draws, ∃ code t, newGene letters draws = .ok code ∧ geneText letters code = .ok t ∧
      Spelled letters draws.length t) ∧
    ∀ n t, Spelled letters n t → ∃ draws code, draws.length = n ∧ newGene letters draws = .ok code ∧
      geneText letters code = .ok t := by
  have hpos : 0 < letters.length := List.length_pos_iff.mpr h
  have hnew : ∀ draws : List Nat, newGene letters draws = .ok (draws.map (· % letters.length)) := by
    intro draws
    unfold newGene
    rw [if_neg (fun e => h e.1)]
  constructor
  · intro draws
    induction draws with
    | nil => exact ⟨[], [], hnew [], rfl, .nil⟩
    | cons d ds ih =>
      obtain ⟨code, t, e, e1, e2⟩ := ih
      rw [hnew] at e
      have e := Except.ok.inj e
      have hlt := Nat.mod_lt d hpos
      refine ⟨_, letters[d % letters.length] ++ t, hnew _, ?_, .cons (List.getElem_mem hlt) e2⟩
      rw [List.map_cons, e, geneText, numToText, List.getElem?_eq_getElem hlt, e1]
      rfl
  · intro n t ht
    induction ht with
    | nil => exact ⟨[], [], rfl, hnew [], rfl⟩
    | @cons n a t ha _ ih =>
      obtain ⟨draws, code, e0, e, e1⟩ := ih
      rw [hnew] at e
      have e := Except.ok.inj e
      obtain ⟨i, hi, rfl⟩ := List.getElem_of_mem ha
      refine ⟨i :: draws, _, by rw [List.length_cons, e0], hnew _, ?_⟩
      rw [List.map_cons, e, geneText, numToText, Nat.mod_eq_of_lt hi, List.getElem?_eq_getElem hi, e1]
      rfl

example : (newGene geneLetters [5, 2, 8]).bind (geneText geneLetters) = .ok t!"tag" := by decide

/-- **C84** Nothing is printed exactly for texts that are formatted to valid HTML. -/
theorem C84_silent (terminal : Bool) (validate : Text → Bool) (r : Run) :
    fuzzOne terminal validate r = [] ↔ FormatsWell validate r := by
  unfold FormatsWell
  cases r with
  | hangs => simp [fuzzOne, child]
  | raises => simp [fuzzOne, child]
  | html t =>
    cases t with
    | none => simp [fuzzOne, child]
    | some t =>
      cases t with
      | nil => simp [fuzzOne, child]
      | cons c t => cases hv : validate (c :: t) <;> simp [fuzzOne, child, hv]

example : fuzzOne true (fun _ => true) (.html (some t!"<div></div>")) = [] := by decide

/-- **C84** (what holds) On a terminal the reason is printed for exactly the texts that raise or give HTML that is
refused.  Missing: other outputs (`C84_false_file`) and texts with empty HTML (`C84_false_empty`). -/
theorem C84_reason_partial (validate : Text → Bool) (r : Run) :
    Report.reason ∈ fuzzOne true validate r ↔
      r = .raises ∨ ∃ t, r = .html (some t) ∧ t ≠ [] ∧ validate t = false := by
  cases r with
  | hangs => simp [fuzzOne, child]
  | raises => simp [fuzzOne, child]
  | html t =>
    cases t with
    | none => simp [fuzzOne, child]
    | some t =>
      cases t with
      | nil => simp [fuzzOne, child]
      | cons c t => cases hv : validate (c :: t) <;> simp [fuzzOne, child, hv]

/-- **C84** is false if the output goes to a file: no reason is ever written. -/
theorem C84_false_file (validate : Text → Bool) (r : Run) : Report.reason ∉ fuzzOne false validate r := by
  cases r with
  | hangs => simp [fuzzOne, child]
  | raises => simp [fuzzOne, child]
  | html t =>
    cases t with
    | none => simp [fuzzOne, child]
    | some t =>
      cases t with
      | nil => simp [fuzzOne, child]
      | cons c t => cases hv : validate (c :: t) <;> simp [fuzzOne, child, hv]

/-- **C84** is false of `timed out`: it is printed for every text that is not good, however fast it fails. -/
theorem C84_false_timeout (terminal : Bool) (validate : Text → Bool) (r : Run) :
    Report.timedOut ∈ fuzzOne terminal validate r ↔ ¬ FormatsWell validate r := by
  rw [← C84_silent terminal validate r]
  unfold fuzzOne
  cases hc : (child terminal validate r).2
  · simp [hc]
  · have : (child terminal validate r).1 = [] := by
      revert hc
      cases r with
      | hangs => simp [child]
      | raises => simp [child]
      | html t =>
        cases t with
        | none => simp [child]
        | some t =>
          cases t with
          | nil => simp [child]
          | cons c t => cases hv : validate (c :: t) <;> simp [child, hv]
    simp [this]

private theorem wletter (a : Text) (h : a ∈ wGeneLetters) : 'P' ∉ a ∧ 'A' ∉ a ∧ 'T' ∉ a ∧ 'B' ∉ a := by
  have : ∀ a ∈ wGeneLetters, 'P' ∉ a ∧ 'A' ∉ a ∧ 'T' ∉ a ∧ 'B' ∉ a := by decide +kernel
  exact this a h

private theorem wtext {n : Nat} {t : Text} (h : Spelled wGeneLetters n t) :
    'P' ∉ t ∧ 'A' ∉ t ∧ 'T' ∉ t ∧ 'B' ∉ t := by
  induction h with
  | nil => simp
  | cons ha _ ih =>
    obtain ⟨h1, h2, h3, h4⟩ := wletter _ ha
    obtain ⟨i1, i2, i3, i4⟩ := ih
    simp only [List.mem_append, not_or]
    exact ⟨⟨h1, i1⟩, ⟨h2, i2⟩, ⟨h3, i3⟩, ⟨h4, i4⟩⟩

private theorem contains_mem {t s : Text} {c : Char} (h : Contains t s) (hc : c ∈ s) : c ∈ t := by
  obtain ⟨a, b, rfl⟩ := h
  simp [hc]

/-- **C84** The texts for the wiki never run for ever, and fail only because of an item without sign in a list with
signs. -/
theorem C84_wiki (env : Env) (n : Nat) (t : Text) (h : Spelled wGeneLetters n t) :
    (∃ l, wikiRun env t = .html (some l)) ∨ (wikiRun env t = .raises ∧ format env t = .error .keyError ∧ SignLine t) := by
  obtain ⟨hP, hA, hT, -⟩ := wtext h
  unfold wikiRun
  rcases C40_errors_partial env t with ⟨b, e⟩ | ⟨e, he, hm⟩
  · rw [e]; exact Or.inl ⟨_, rfl⟩
  · right
    rw [he]
    cases e with
    | typeError => rcases hm with hm | hm
                   · exact absurd (contains_mem hm (by decide)) hP
                   · exact absurd (contains_mem hm (by decide)) hA
    | attributeError => rcases hm with hm | hm
                        · exact absurd (contains_mem hm (by decide)) hT
                        · exact absurd (contains_mem hm.1 (by decide)) hA
    | assertion => exact absurd (contains_mem hm.1 (by decide)) hA
    | keyError => exact ⟨rfl, rfl, hm⟩
    | _ => exact hm.elim

/-- That one can be found: a text of nine letters, which is reported. -/
example : Spelled wGeneLetters 9 t!" + a\n * b" ∧ wikiRun {} t!" + a\n * b" = .raises := by
  refine ⟨?_, by decide⟩
  repeat' (first | exact Spelled.nil | refine Spelled.cons (a := [_]) (by decide) ?_)

/-- Three letters make a row of a table, and six a link with a title. -/
example : Spelled wGeneLetters 3 t!"||CamelWord||" ∧ Spelled wGeneLetters 6 t!"[wiki:CamelWord a]" :=
  ⟨.cons (a := t!"||") (by decide) (.cons (a := t!"CamelWord") (by decide) (.cons (a := t!"||") (by decide) .nil)),
    .cons (a := t!"[") (by decide) (.cons (a := t!"wiki:") (by decide) (.cons (a := t!"CamelWord") (by decide)
      (.cons (a := t!" ") (by decide) (.cons (a := t!"a") (by decide) (.cons (a := t!"]") (by decide) .nil)))))⟩

/-- **C84** is false of the macros: no text by chance names one, so that failures of macros (C40_false_position,
C40_false_toc, C40_false_analysis) are never found. -/
theorem C84_false_macros (n : Nat) (t : Text) (h : Spelled wGeneLetters n t) :
    ∀ name ∈ [t!"BR", t!"Timestamp", t!"TableOfContent", t!"Position", t!"Analysis"], ¬ Contains t name := by
  obtain ⟨hP, hA, hT, hB⟩ := wtext h
  intro name hn hc
  simp only [List.mem_cons, List.not_mem_nil, or_false] at hn
  rcases hn with rfl | rfl | rfl | rfl | rfl
  · exact hB (contains_mem hc (by decide))
  · exact hT (contains_mem hc (by decide))
  · exact hT (contains_mem hc (by decide))
  · exact hP (contains_mem hc (by decide))
  · exact hA (contains_mem hc (by decide))

/-- **C84** is false of texts with nothing to show: a new line is formatted to nothing, and `verify` takes this for a
failure that it does not report but raises. -/
theorem C84_false_empty (terminal : Bool) (validate : Text → Bool) : Spelled wGeneLetters 1 t!"\n" ∧
    wikiRun {} t!"\n" = .html (some []) ∧
    fuzzOne terminal validate (wikiRun {} t!"\n") = [.traceback, .timedOut] := by
  have e : wikiRun {} t!"\n" = .html (some []) := by decide
  refine ⟨Spelled.cons (a := t!"\n") (by decide) .nil, e, ?_⟩
  rw [e]; rfl

/-- **C84** is false of shorter texts: asking which of them fail never gives an answer. -/
theorem C84_false_shorter (code : List Nat) : shorterFails code = .error .nameError ∧
    (code ≠ [] → iterSubset code = .error .typeError) := ⟨rfl, fun h => if_neg h⟩

end Bglib
