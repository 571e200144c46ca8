import Verif.Model.WikiFormatter
import Verif.Model.HtmlCompare
import Verif.Model.AnalysisTable
import Verif.Spec.Wiki
/-
Evidence for the model of wiki text: the tests the authors wrote, compared as they compare but for attributes.
-/
namespace Bglib.Check
open Bglib Bglib.Doc Bglib.Spec

/-- How a test calls the formatter: all lines, one line, or a macro. -/
inductive Call where
  | wiki
  | line
  | macro (name : Text)

/-- A test: the call, the text, and the HTML expected. -/
structure WikiTest where
  call : Call
  text : Option Text
  html : Text

/-- Where in HTML. -/
inductive At where
  | text
  | name
  | attrs

/-- HTML without attributes. -/
def bare : At → Text → Text
  | _, [] => []
  | .text, c :: r => c :: bare (if c = '<' then .name else .text) r
  | .name, c :: r => if c = ' ' then bare .attrs r else c :: bare (if c = '>' then .text else .name) r
  | .attrs, '/' :: '>' :: r => ' ' :: '/' :: '>' :: bare .text r
  | .attrs, '>' :: r => '>' :: bare .text r
  | .attrs, _ :: r => bare .attrs r

/-! The floats of `mock.py` and `macro_test.py`, exactly. -/
def f0_011 : Flt := ⟨false, 3170534137668829, 2 ^ 58⟩
def f0_008 : Flt := ⟨false, 1152921504606847, 2 ^ 57⟩
def f0_519 : Flt := ⟨false, 4674736413210575, 2 ^ 53⟩
def f0_072 : Flt := ⟨false, 5188146770730811, 2 ^ 56⟩
def f0_002 : Flt := ⟨false, 1152921504606847, 2 ^ 59⟩
def f0_481 : Flt := ⟨false, 4332462841530417, 2 ^ 53⟩
def f0_101 : Flt := ⟨false, 3638908498915361, 2 ^ 55⟩
def f0_236 : Flt := ⟨false, 1062849512059437, 2 ^ 52⟩
def f0_764 : Flt := ⟨false, 3440750115311059, 2 ^ 52⟩
def fm0_096 : Flt := ⟨true, 3458764513820541, 2 ^ 55⟩
def fm0_332 : Flt := ⟨true, 5980780305148019, 2 ^ 54⟩
def f0_975 : Flt := ⟨false, 8782019273372467, 2 ^ 53⟩
def f0_0 : Flt := ⟨false, 0, 2 ^ 0⟩
def f0_752 : Flt := ⟨false, 3386706919782613, 2 ^ 52⟩
def f0_123 : Flt := ⟨false, 553942754166571, 2 ^ 52⟩
def f0_248 : Flt := ⟨false, 1116892707587883, 2 ^ 52⟩
def f0_028 : Flt := ⟨false, 8070450532247929, 2 ^ 58⟩
def f0_914 : Flt := ⟨false, 8232580118833267, 2 ^ 53⟩
def fm0_061 : Flt := ⟨true, 1098878309078401, 2 ^ 54⟩
def f0_733 : Flt := ⟨false, 6602277053725147, 2 ^ 53⟩
def f0_093 : Flt := ⟨false, 3350678122763649, 2 ^ 55⟩
def f0_001 : Flt := ⟨false, 1152921504606847, 2 ^ 60⟩
def f0_267 : Flt := ⟨false, 2404922201015845, 2 ^ 53⟩
def f0_021 : Flt := ⟨false, 6052837899185947, 2 ^ 58⟩
def f0_614 : Flt := ⟨false, 5530420342410969, 2 ^ 53⟩
def fm0_362 : Flt := ⟨true, 3260606130216239, 2 ^ 53⟩
def f0_671 : Flt := ⟨false, 3021915349965603, 2 ^ 52⟩
def f0_175 : Flt := ⟨false, 3152519739159347, 2 ^ 54⟩
def f0_329 : Flt := ⟨false, 5926737109619573, 2 ^ 54⟩
def f0_06 : Flt := ⟨false, 1080863910568919, 2 ^ 54⟩
def f0_321 : Flt := ⟨false, 5782621921543717, 2 ^ 54⟩
def f56_2 : Flt := ⟨false, 3954723422784717, 2 ^ 46⟩
def f11_0 : Flt := ⟨false, 11, 2 ^ 0⟩
def f0_3 : Flt := ⟨false, 5404319552844595, 2 ^ 54⟩
def f43_8 : Flt := ⟨false, 3082150994981683, 2 ^ 46⟩
def f4_0 : Flt := ⟨false, 4, 2 ^ 0⟩
def f0_1 : Flt := ⟨false, 3602879701896397, 2 ^ 55⟩
def f0_213 : Flt := ⟨false, 7674133765039325, 2 ^ 55⟩
def fm0_108 : Flt := ⟨true, 7782220156096217, 2 ^ 56⟩
def f0_12 : Flt := ⟨false, 1080863910568919, 2 ^ 53⟩
def fm0_201 : Flt := ⟨true, 3620894100405879, 2 ^ 54⟩
def f0_926 : Flt := ⟨false, 8340666509890159, 2 ^ 53⟩
def fm0_075 : Flt := ⟨true, 5404319552844595, 2 ^ 56⟩
def f1_296 : Flt := ⟨false, 5836665117072163, 2 ^ 52⟩
def f0_296 : Flt := ⟨false, 5332261958806667, 2 ^ 54⟩
def f0_706 : Flt := ⟨false, 1589770668461785, 2 ^ 51⟩
def f0_696 : Flt := ⟨false, 3134505340649865, 2 ^ 52⟩
def f76_6 : Flt := ⟨false, 2695122902004531, 2 ^ 45⟩
def f23_6 : Flt := ⟨false, 3321404725185741, 2 ^ 47⟩
def f1_0 : Flt := ⟨false, 1, 2 ^ 0⟩
def f23_4 : Flt := ⟨false, 3293257227514675, 2 ^ 47⟩
def f7_8 : Flt := ⟨false, 8782019273372467, 2 ^ 50⟩

/-- The cells of a row of `mock.py`; a row that cannot be shown does not occur there. -/
def cubeCells (nth action : Int) (equity : Flt) (diff : Option Flt) (actual : Int) : Int × List Text :=
  (nth, match cubeActionRow nth action equity diff actual with
    | .ok (_, cells) => cells
    | .error _ => [])

/-- The data of `mock.py`. -/
def mock (p _m : Text) : Analysis :=
  if p = t!"vzsAAFhu2xFABA" then
    .cube (cubelessTexts 2 f0_011 f0_008 ⟨f0_519, f0_072, f0_002, f0_481, f0_101, f0_002⟩)
      [cubeCells 1 0 f0_236 none 1, cubeCells 2 2 f0_236 (some f0_764) 0,
        cubeCells 3 1 fm0_096 (some fm0_332) 0]
  else .moves
    [(1, (moveListingRow 1 t!"21/15(2) 13/7(2)" 2 f0_975 (some f0_0)
        ⟨f0_752, f0_123, f0_002, f0_248, f0_028, f0_0⟩ false).2),
      (2, (moveListingRow 2 t!"21/9(2)" 2 f0_914 (some fm0_061)
        ⟨f0_733, f0_093, f0_001, f0_267, f0_021, f0_0⟩ false).2),
      (3, (moveListingRow 3 t!"21/15(2) 8/2*(2)" 0 f0_614 (some fm0_362)
        ⟨f0_671, f0_175, f0_002, f0_329, f0_06, f0_001⟩ false).2)]

/-- `setUp` of the tests -/
def testEnv : Env := { wikipath := t!"/wiki/", db := some mock }

/-- What the model gives. -/
def WikiTest.run (t : WikiTest) : Py (List Tok) := do
  let w ← match t.call with
    | .wiki => Wiki.start.parse testEnv (t.text.getD [])
    | .line => Wiki.start.parseLine testEnv (t.text.getD [])
    | .macro n => Wiki.start.dispatch testEnv n t.text
  w.html testEnv

/-- The test passes. -/
def WikiTest.passes (t : WikiTest) : Bool :=
  match t.run with
  | .error _ => false
  | .ok r => htmlSame id (htmlText r) (bare .text t.html)

end Bglib.Check
