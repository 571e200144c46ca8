import Verif.Check.Wiki
/-
Evidence for the model of the tables: the rows of the authors' tests, `macro_test.py:145-262`.
-/
namespace Bglib.Check
open Bglib Bglib.Doc

/-- Without blanks at both ends (`assertHtmlEqual` does not look at them). -/
def trimmed (t : Text) : Text := ((t.dropWhile (· = ' ')).reverse.dropWhile (· = ' ')).reverse

example : cubeActionRow 3 0 f0_926 (some fm0_075) 0 =
    .ok (t!"oddrow", [t!"No double", t!"+0.926", t!"-0.075"]) := by decide +kernel
example : cubeActionRow 2 1 f1_296 (some f0_296) 0 =
    .ok (t!"evenrow", [t!"Double, take", t!"+1.296", t!"+0.296"]) := by decide +kernel
example : cubeActionRow 1 2 f1_0 none 0 =
    .ok (t!"oddrow", [t!"Double, pass", t!"+1.000", t!""]) := by decide +kernel
example : cubeActionRow 1 0 f0_236 none 1 =
    .ok (t!"actualrow", [t!"No double", t!"+0.236", t!""]) := by decide +kernel

example : let r := moveListingRow 1 t!"12/10" 2 f0_321 (some f0_0) ⟨f56_2, f11_0, f0_3, f43_8, f4_0, f0_1⟩ false
    (r.1, r.2.map trimmed) = (t!"oddrow", [t!"12/10", t!"2", t!"+0.321",
      t!"56.2", t!"11.0", t!"0.3", t!"43.8", t!"4.0", t!"0.1"]) := by decide +kernel
example : let r := moveListingRow 2 t!"12/10" 2 f0_213 (some fm0_108) ⟨f56_2, f11_0, f0_3, f43_8, f4_0, f0_1⟩ false
    (r.1, r.2.map trimmed) = (t!"evenrow", [t!"12/10", t!"2", t!"+0.213 (-0.108)",
      t!"56.2", t!"11.0", t!"0.3", t!"43.8", t!"4.0", t!"0.1"]) := by decide +kernel
example : let r := moveListingRow 3 t!"12/10" 2 f0_12 (some fm0_201) ⟨f56_2, f11_0, f0_3, f43_8, f4_0, f0_1⟩ true
    (r.1, r.2.map trimmed) = (t!"actualrow", [t!"12/10", t!"2", t!"+0.120 (-0.201)",
      t!"56.2", t!"11.0", t!"0.3", t!"43.8", t!"4.0", t!"0.1"]) := by decide +kernel
example : cubelessTexts 2 f0_706 f0_696 ⟨f76_6, f23_6, f1_0, f23_4, f7_8, f0_3⟩ =
    [t!"2", t!"+0.706 (Money +0.696)", t!"76.6", t!"23.6", t!"1.0", t!"23.4", t!"7.8", t!"0.3"] := by decide +kernel

end Bglib.Check
