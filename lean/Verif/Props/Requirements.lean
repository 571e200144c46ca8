import Verif.Lemmas.Requirements
/-
C124: what the file freeze.txt lists is required by the installation script.

False of the file that comes with the library, which has a line setuptools does not read; and the script that comes with the
library was written from another file.
-/
namespace Bglib
open Bglib.Setup Bglib.Spec.Setup

/-- The property: setuptools reads a requirement from the script for each line of the file. -/
def C124_statement (f : Files) : Prop := ∃ out qs, main f = .ok out ∧ required out = some qs ∧ qs.length = (readLines [] f.freeze).length

/-- If all lines of freeze.txt name a version, exactly these versions are required. -/
theorem C124_pinned_partial (f : Files) (hf : Fits f) (pins : List (Text × Text)) (hp : ∀ p ∈ pins, IsPin p)
    (h : f.freeze = pins.flatMap pinned) :
    ∃ out, main f = .ok out ∧ required out = some (pins.map fun p => ⟨p.1, [(t!"==", p.2)]⟩) := by
  obtain ⟨out, h1, h2⟩ := required_eq f hf
  exact ⟨out, h1, by rw [h2, h]; exact pins_read pins hp⟩

/-- If a line has a sign that is not used in requirements, with no comment before it, then setuptools refuses the script. -/
theorem C124_refused (f : Files) (hf : Fits f) (before x y after : Text) (c : Char)
    (h : f.freeze = before ++ (x ++ c :: y) ++ '\n' :: after) (hb : before = [] ∨ ∃ b, before = b ++ ['\n'])
    (hl : ∀ d ∈ x ++ c :: y, d ≠ '\n' ∧ d ≠ '\r') (hc : usedIn c = false) (hx : '#' ∉ x) (h1 : c ≠ '#') :
    ∃ out, main f = .ok out ∧ required out = none := by
  obtain ⟨out, h2, h3⟩ := required_eq f hf
  refine ⟨out, h2, ?_⟩
  have hnl : '\n' ∉ x ++ c :: y := fun hm => (hl _ hm).1 rfl
  have hm : (x ++ c :: y) ++ ['\n'] ∈ readLines [] f.freeze := by
    rw [h]
    rcases hb with rfl | ⟨b, rfl⟩
    · rw [List.nil_append, readLines_line _ _ hnl]
      simp
    · have := readLines_mem (x ++ c :: y) after hnl b []
      simpa using this
  obtain ⟨hbad, d, r, hs, hd⟩ := strip_improper (y := y) hc hx h1
  have hcl : Doc.strip (x ++ c :: y) ∈ cleanLines ((x ++ c :: y) ++ ['\n']) := by
    unfold cleanLines
    rw [cut_line _ hl]
    refine List.mem_filter.2 ⟨by simp, ?_⟩
    rw [hs]
    simp [hd]
  rw [h3]
  refine mapM_none (List.mem_flatMap.2 ⟨_, hm, hcl⟩) ?_
  cases hr : requirement (Doc.strip (x ++ c :: y)) with
  | none => rfl
  | some q => rw [requirement_used hr] at hbad; cases hbad

private theorem fits_files : Fits files := by
  refine ⟨?_, ⟨?_, ?_⟩, ?_⟩
  · unfold FitsShort Ascii; decide +kernel
  · unfold Ascii; decide +kernel
  · intro a b h
    have hc : ('"' : Char) ∉ files.description := by decide +kernel
    have hl := congrArg (List.count '"') h
    simp only [List.count_append, List.count_eq_zero.2 hc] at hl
    have : List.count '"' t!"\"\"" = 2 := by decide
    have : List.count '"' t!"\"\"\"" = 3 := by decide
    omega
  · decide +kernel

/-- False of the files that come with the library: the line `git+ssh://git@github.com/bgnori/tonic.git` of freeze.txt is none
that setuptools reads, so that the script written from them is refused. -/
theorem C124_false : ¬ C124_statement files ∧ ∃ out, main files = .ok out ∧ required out = none := by
  have h : ∃ out, main files = .ok out ∧ required out = none := by
    refine C124_refused files fits_files (files.freeze.take 197) t!"git" t!"ssh://git@github.com/bgnori/tonic.git" t!"wsgiref==0.1.2\n" '+'
      ?_ (.inr ⟨files.freeze.take 196, ?_⟩) (by decide) (by decide) (by decide) (by decide)
    · decide +kernel
    · decide +kernel
  refine ⟨?_, h⟩
  rintro ⟨out, qs, h1, h2, _⟩
  obtain ⟨out', h3, h4⟩ := h
  rw [h1] at h3
  cases h3
  rw [h2] at h4
  cases h4

/-- What freeze.txt listed when the script that comes with the library was written. -/
def Setup.formerPins : List (Text × Text) := [(t!"BeautifulSoup", t!"3.2.0"), (t!"ClientForm", t!"0.2.10"), (t!"Markdown", t!"2.1.1"),
  (t!"decorator", t!"3.3.2"), (t!"distribute", t!"0.6.19"), (t!"docutils", t!"0.8.1"), (t!"elementtree", t!"1.2.7-20070827-preview"),
  (t!"feedparser", t!"5.0.1"), (t!"nose", t!"1.1.2"), (t!"python-memcached", t!"1.47"), (t!"python-tonic-library", t!"0.0.16.rev"),
  (t!"wsgiref", t!"0.1.2")]

/-- The script that comes with the library is not the one written from its files: it was written when freeze.txt listed
another version of tonic, and requires that. -/
theorem C124_false_shipped : main files ≠ .ok shippedScript ∧
    main { files with freeze := formerPins.flatMap pinned } = .ok shippedScript ∧
    required shippedScript = some (formerPins.map fun p => ⟨p.1, [(t!"==", p.2)]⟩) := by
  have hm : main { files with freeze := formerPins.flatMap pinned } = .ok shippedScript := by
    rw [main_eq]
    exact congrArg Except.ok (by decide +kernel)
  have hp : ∀ p ∈ formerPins, IsPin p := by unfold IsPin; decide +kernel
  have hr : required shippedScript = some (formerPins.map fun p => ⟨p.1, [(t!"==", p.2)]⟩) := by
    obtain ⟨out, h1, h2⟩ := C124_pinned_partial { files with freeze := formerPins.flatMap pinned }
      ⟨fits_files.version, fits_files.description, by decide +kernel⟩ formerPins hp rfl
    rw [hm] at h1
    cases h1
    exact h2
  refine ⟨fun e => ?_, hm, hr⟩
  obtain ⟨out, h1, h2⟩ := C124_false.2
  rw [e] at h1
  cases h1
  rw [hr] at h2
  cases h2

/-- Non-vacuity: a script with requirements that are read; comments and lists of versions are read too. -/
example : requirement t!"nose >= 1.1, != 1.2 # for tests" = some ⟨t!"nose", [(t!">=", t!"1.1"), (t!"!=", t!"1.2")]⟩ ∧
    requirement t!"wsgiref" = some ⟨t!"wsgiref", []⟩ ∧ requirement t!"-e git+ssh://x" = none := by decide +kernel

end Bglib
