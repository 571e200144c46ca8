import Verif.Model.Css
import Verif.Model.Mag
/-
Evidence for the models of elements, rules and scaling: the tests of `image/css_test.py` and `image/base_test.py`.
`repr` of elements, selectors and rules is only used to compare them; here they are compared themselves, and the order of a
dictionary, which some of the tests depend on, is left out.  The tests that use the network are left out.
-/
namespace Bglib.Check
open Bglib Bglib.Img

/-! ### `css_test.py` -/

def sel42 : Selector := ⟨t!"point", some (t!"x", t!"42"), some t!"2"⟩
def elem (n : EName) (attrs : List (Text × Value)) (data : List Text := []) : Elem := ⟨n, attrs, data⟩

/-- `selector_match_test`, `selector_mismatch_*_test`, `selector_match_extra_attr_test` -/
example : sel42.isMatch (elem .point [(t!"x", .int 42)] [t!"2"]) = .ok true := by decide
example : sel42.isMatch (elem .point [(t!"x", .int 43)] [t!"2"]) = .ok false := by decide
example : sel42.isMatch (elem .die [(t!"x", .int 42)] [t!"2"]) = .ok false := by decide
example : sel42.isMatch (elem .point [(t!"x", .int 42)]) = .ok false := by decide
example : sel42.isMatch (elem .point [(t!"x", .int 42)] [t!"3"]) = .ok false := by decide
example : sel42.isMatch (elem .point [(t!"x", .int 42), (t!"y", .int 22)] [t!"2"]) = .ok true := by decide

/-- `Rule_test`: the later value stays -/
example : putText t!"image" t!"uri(\"backgammon.jpg\")" (putText t!"image" t!"uri(\"board.jpg\")" []) =
    [(t!"image", t!"uri(\"backgammon.jpg\")")] := by decide

/-- `selector_and_element_test` -/
def rule42 : Rule := ⟨t!"~/defaule.css", [sel42], [(t!"image", t!"uri(\"backgammon.jpg\")")]⟩
example : rule42.isMatch [elem .point [(t!"x", .int 42)] [t!"2"]] = .ok true ∧
    rule42.apply [] (elem .point [(t!"x", .int 42)] [t!"2"]) =
      .ok (elem .point [(t!"x", .int 42), (t!"image", .str t!"~/backgammon.jpg")] [t!"2"]) ∧
    rule42.apply [] (elem .point [(t!"x", .int 42)]) = .ok (elem .point [(t!"x", .int 42)]) := by decide +kernel

/-- `parser_test` -/
def css : Text := t!"~/defaule.css"
example : parseRule css t!"point:data(1) { x: 249 ; y: 139 }" =
    .ok (some ⟨css, [⟨t!"point", none, some t!"1"⟩], [(t!"x", t!"249"), (t!"y", t!"139")]⟩) := by decide +kernel
example : parseRule css t!"point:data(1) { x: 249}" =
    .ok (some ⟨css, [⟨t!"point", none, some t!"1"⟩], [(t!"x", t!"249")]⟩) := by decide +kernel
example : parseRule css t!"point {x: 0; y: 0; width: 341; height: 232}" =
    .ok (some ⟨css, [⟨t!"point", none, none⟩],
      [(t!"x", t!"0"), (t!"y", t!"0"), (t!"width", t!"341"), (t!"height", t!"232")]⟩) := by decide +kernel
example : parseRule css t!"die:data(1) {image}" =
    .ok (some ⟨css, [⟨t!"die", none, some t!"1"⟩], []⟩) := by decide +kernel
example : parseRule css t!"home[player=you] cube{x: 266; y: 197;}" =
    .ok (some ⟨css, [⟨t!"home", some (t!"player", t!"you"), none⟩, ⟨t!"cube", none, none⟩],
      [(t!"x", t!"266"), (t!"y", t!"197")]⟩) := by decide +kernel

/-- `css_apply_test` -/
def path1 : List Elem := [elem .board [], elem .point [(t!"parity", .str t!"even")]]
def chequer1 : Elem := elem .chequer [(t!"player", .str t!"him")] [t!"1"]
def evenRule (n : Text) : Rule := ⟨css, [⟨t!"point", some (t!"parity", t!"even"), none⟩,
  ⟨t!"chequer", some (t!"player", t!"him"), some n⟩], [(t!"image", t!"uri(\"even-green-" ++ n ++ t!".jpg\")")]⟩
example : parseRule css t!"point[parity=even] chequer[player=him]:data(2)  {image: uri(\"even-green-2.jpg\")} " =
    .ok (some (evenRule t!"2")) := by decide +kernel
example : parseRule css t!"point[parity=even] chequer[player=him]:data(1)  {image: uri(\"even-green-1.jpg\")} " =
    .ok (some (evenRule t!"1")) := by decide +kernel
example : (evenRule t!"2").isMatch (path1 ++ [chequer1]) = .ok false ∧
    (evenRule t!"2").apply path1 chequer1 = .ok chequer1 ∧
    (evenRule t!"1").isMatch (path1 ++ [chequer1]) = .ok true ∧
    (evenRule t!"1").apply path1 chequer1 = .ok (elem .chequer [(t!"player", .str t!"him"),
      (t!"image", .str t!"~/even-green-1.jpg")] [t!"1"]) := by decide +kernel

/-! ### `base_test.py` -/

/-- `board_test` to `point_test`: the children that are accepted.  (A child that is accepted although the test does not list
it is no failure: the assertion is inside of the `try`.) -/
def accepted : List (EName × List EName) := [(.board, [.match, .position]),
  (.match, [.action, .length, .crawford, .score]), (.position, [.cubeholder, .field, .home, .bar, .point]),
  (.cubeholder, [.cube]), (.field, [.cube, .die, .resign]), (.home, [.cube, .chequer]), (.bar, [.chequer]),
  (.point, [.chequer])]
example : (accepted.all fun x => x.2.all fun k =>
    ((Tree.node (elem x.1 []) []).append (.node (elem k []) [])).toOption.isSome) = true := by decide
example : ((Tree.node (elem .chequer []) []).write t!"str").toOption.isSome = true := by decide

/-- `mag_test` -/
def scaled (w h : Int) (bound : Int × Int) (x : Int) : Py Int := (setMag w h bound).map fun m => applyMag m x
example : scaled 300 200 (400, 300) 300 = .ok 400 ∧ scaled 300 200 (400, 300) 200 = .ok 266 ∧
    scaled 300 200 (400, 300) 150 = .ok 200 ∧ scaled 300 300 (400, 300) 300 = .ok 300 ∧
    scaled 300 300 (400, 300) 200 = .ok 200 := by decide +kernel

/-- `hasattr_*_test`; a `BaseElement` is a board here, which has the same attributes. -/
example : ([t!"x", t!"y", t!"width", t!"height", t!"image", t!"background", t!"color", t!"font"].all fun n =>
    lookupAttr n [elem .board []] = .error .attributeError) = true := by decide
example : lookupAttr t!"flip" [elem .board []] = .ok (.bool false) ∧
    lookupAttr t!"hide_count" [elem .chequer []] = .ok (.bool false) ∧
    ([t!"x_offset", t!"y_offset", t!"x_offset2", t!"y_offset2"].all fun n =>
      lookupAttr n [elem .chequer []] = .ok (.int 0)) = true := by decide

/-- `attr_inherit_test` -/
example : lookupAttr t!"x" [elem .match [], elem .board [(t!"x", .int 10)]] = .ok (.int 10) := by decide

/-- `attr_string_test`, `attr_int_test`, `attr_flip_test`, `attr_parity_test`, `attr_player_test`, `facotry_test` -/
example : (elem .board []).set t!"image" (.str t!"hoge") = .ok (elem .board [(t!"image", .str t!"hoge")]) ∧
    (elem .board []).set t!"x" (.int 10) = .ok (elem .board [(t!"x", .int 10)]) ∧
    (elem .board [(t!"x", .int 10)]).set t!"x" (.str t!"hoge") = .error .typeError ∧
    ((elem .board []).set t!"flip" (.bool true)).toOption.isSome = true ∧
    ((elem .point []).set t!"parity" (.str t!"even")).toOption.isSome = true ∧
    ((elem .home []).set t!"player" (.str t!"you")).toOption.isSome = true ∧
    ((elem .home []).set t!"player" (.str t!"him")).toOption.isSome = true ∧
    (elem .home []).set t!"player" (.str t!"hoge") = .error .typeError ∧
    ((elem .score []).set t!"player" (.str t!"you")).map (fun e => lookupAttr t!"player" [e]) =
      .ok (.ok (.str t!"you")) := by decide

end Bglib.Check
