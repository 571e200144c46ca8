import Verif.Lemmas.Setup
/-
C103: the installation script that is written.
-/
namespace Bglib
open Bglib.Setup Bglib.Spec.Setup

/-! ### C103: the installation script says what the files say -/

/-- **C103**: with files that fit, the script is written, and Python reads from it the call of `setup` with the version and the
description that are in the files, and a requirement for each line of freeze.txt. -/
theorem C103_script_partial (f : Files) (hf : Fits f) : ∃ out lines, main f = .ok out ∧
    lines.flatten = f.freeze ∧ (∀ l ∈ lines, '\n' ∉ l.dropLast ∧ l ≠ []) ∧
    arguments out = some (intended (Doc.strip f.version) f.description lines) := by
  obtain ⟨h1, h2⟩ := readLines_spec f.freeze [] (by simp)
  refine ⟨_, readLines [] f.freeze, main_eq f, h1, h2, ?_⟩
  obtain ⟨r, h3, h4⟩ := arguments_of (Doc.strip f.version) f.description (readLines [] f.freeze)
  unfold arguments words
  rw [words_of f hf]
  simp only [bind, Option.bind, h3, h4]
  exact mapM_toWords _

/-- Non-vacuity: the files that come with the library fit. -/
theorem C103_files : Fits files := by
  refine ⟨?_, ⟨?_, ?_⟩, ?_⟩
  · unfold FitsShort Ascii; decide +kernel
  · unfold Ascii; decide +kernel
  · intro a b h
    have hc : ('"' : Char) ∉ files.description := by decide +kernel
    have hl := congrArg (List.count '"') h
    simp only [List.count_append, List.count_eq_zero.2 hc] at hl
    have : List.count '"' t!"\"\"" = 2 := by decide
    have : List.count '"' t!"\"\"\"" = 3 := by decide
    omega
  · decide +kernel

/-- The script is written for all files, whatever is in them: braces in the files do no harm. -/
theorem C103_written (f : Files) : ∃ out, main f = .ok out := ⟨_, main_eq f⟩

/-- False if the description ends with a quotation mark: Python refuses the script.  False if it has backslashes: Python
reads another description. -/
theorem C103_false_description :
    (∃ out, main ⟨t!"1", t!"a \"toy\"", []⟩ = .ok out ∧ words out = none) ∧
    (∃ out, main ⟨t!"1", t!"c:\\new", []⟩ = .ok out ∧ arguments out = some (intended t!"1" t!"c:\new" [])) := by
  constructor
  · refine ⟨_, main_eq _, words_bad _ ?_ [.str t!"a \"toy"] (by decide +kernel)⟩
    unfold FitsShort Ascii; decide +kernel
  · refine ⟨_, main_eq _, ?_⟩
    have h := words_with ⟨t!"1", t!"c:\\new", []⟩ (by unfold FitsShort Ascii; decide +kernel) (by simp) t!"c:\new" (by decide +kernel)
    obtain ⟨r, h3, h4⟩ := arguments_of t!"1" t!"c:\new" []
    have e : Doc.strip (t!"1" : Text) = t!"1" := by decide +kernel
    unfold arguments words
    rw [h]
    simp only [e, readLines, List.reverse_nil, if_true, bind, Option.bind] at h3 ⊢
    simp only [h3, h4]
    exact mapM_toWords _

/-- A file that a style of the library names, or its style sheet, is installed if it is there at all: the one that is not
installed is the font of two of the styles, which the library does not have. -/
theorem C103_styles_partial : ∀ style ∈ Spec.shipped, ∀ file ∈ (needs style).2,
    (∃ p ∈ dataFiles, p.1 = (needs style).1 ∧ fits p.2 file = true) ∨
      (file = t!"DejaVuLGCSans-Bold.ttf" ∧ (needs style).1 ∈ [t!"matrix", t!"safari"]) := by decide +kernel

/-- False without the exception: no pattern covers that font, and both styles name it. -/
theorem C103_false_fonts :
    (∀ style ∈ [(Img.Matrix.path, Img.Matrix.lines), (Img.Safari.path, Img.Safari.lines)],
      style ∈ Spec.shipped ∧ t!"DejaVuLGCSans-Bold.ttf" ∈ (needs style).2) ∧
    ∀ p ∈ dataFiles, p.1 ∈ [t!"matrix", t!"safari"] → fits p.2 t!"DejaVuLGCSans-Bold.ttf" = false := by decide +kernel

/-- Non-vacuity: the first style names a file. -/
example : (needs (Img.Neon.path, Img.Neon.lines)).1 = t!"neon" ∧ t!"Cake.ttf" ∈ (needs (Img.Neon.path, Img.Neon.lines)).2 := by
  decide +kernel

/-- False: three packages of the library are not installed. -/
theorem C103_false_packages : packages.filter (· ∉ installed) = [t!"bglib.encoding.bearoff", t!"bglib.record", t!"bglib.stat"] ∧
    ∀ p ∈ installed, p ∈ packages := by decide

end Bglib
