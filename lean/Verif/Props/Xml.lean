import Verif.Lemmas.XmlPlain
import Verif.Props.Theme
/-
C78: the XML of a tree can be read again.  C79: the XML of a tree obeys the declarations of the library.
-/
namespace Bglib
open Spec Img

/-- The tree of a board in a style. -/
def Spec.TreeOf (rules : List Rule) (b : Board) (t : Tree) : Prop :=
  ∃ e, ETree.create.set b = .ok e ∧ e.board.styled rules [] = .ok t

/-- If the rules of the style set nothing but plain signs, what is written for a board is read as the tree it was written
from: every element, attribute and string, in order.

What is missing: rules with other signs, see `C78_false_amp` and `C78_false_quote`. -/
theorem C78_read_partial (rules : List Rule) (h : ∀ r ∈ rules, PlainRule r = true) (b : Board) (t : Tree)
    (ht : TreeOf rules b t) : readXml t.xmlText = some (describe t) := by
  obtain ⟨e, h1, h2⟩ := ht
  exact readXml_tree (sound_of_board allows_plain (fun r hr => ruleAllows_plain (h r hr)) h1 h2)

/-- It begins with the version and the signs used, and with the name of the outermost element. -/
theorem C78_prolog (rules : List Rule) (b : Board) (t : Tree) (ht : TreeOf rules b t) :
    ∃ rest, t.xmlText = t!"<?xml version=\"1.0\" encoding=\"us-ascii\" ?>\n" ++ (t!"<!DOCTYPE " ++ ((describe t).name ++
      (t!" SYSTEM \"http://dtd.wxpygammon.org/backgammon.dtd\" >\n" ++ rest))) := by
  obtain ⟨e, h1, h2⟩ := ht
  have hn := (sound_styled (A := fun _ => True) (S := fun _ => True) (fun _ _ _ _ _ _ _ _ _ _ _ => trivial) e.board
    (parts_board (parts_set allows_all (parts_create allows_all) h1)) h2).2
  have hd : (describe t).name = t!"board" := by
    cases t with
    | node x ks =>
      unfold describe Xml.name
      change x.name = e.board.elem.name at hn
      rw [hn]; rfl
  exact ⟨t.format 0, by rw [hd]; rfl⟩

/-- The values of attributes are written so that they can be told apart: numbers in decimal, truth values by their names,
everything else as it is. -/
theorem C78_values : (∀ n, pyInt (Value.int n).text = some n) ∧ (Value.bool true).text = t!"True" ∧
    (Value.bool false).text = t!"False" ∧ ∀ s, (Value.str s).text = s ∧ (Value.float s).text = s :=
  ⟨pyInt_pyStr, rfl, rfl, fun _ => ⟨rfl, rfl⟩⟩

/-- So two boards written alike in such styles have the same trees. -/
theorem C78_inj (r1 r2 : List Rule) (h1 : ∀ r ∈ r1, PlainRule r = true) (h2 : ∀ r ∈ r2, PlainRule r = true) (b1 b2 : Board)
    (t1 t2 : Tree) (ht1 : TreeOf r1 b1 t1) (ht2 : TreeOf r2 b2 t2) (h : t1.xmlText = t2.xmlText) :
    describe t1 = describe t2 := by
  have := (C78_read_partial r1 h1 b1 t1 ht1).symm.trans ((congrArg readXml h).trans (C78_read_partial r2 h2 b2 t2 ht2))
  exact Option.some.inj this

/-- The styles that come with the library are of this kind. -/
theorem C78_shipped (s : Text × List Text) (h : s ∈ shipped) :
    ∃ rules, loadCss s.1 s.2 = .ok rules ∧ ∀ r ∈ rules, PlainRule r = true := by
  simp only [shipped, List.mem_cons, List.not_mem_nil, or_false] at h
  rcases h with rfl | rfl | rfl | rfl | rfl | rfl | rfl | rfl
  · exact ⟨_, Deutsche.load, List.all_eq_true.1 (by decide +kernel)⟩
  · exact ⟨_, Flower.load, List.all_eq_true.1 (by decide +kernel)⟩
  · exact ⟨_, Kotobuki.load, List.all_eq_true.1 (by decide +kernel)⟩
  · exact ⟨_, Matrix.load, List.all_eq_true.1 (by decide +kernel)⟩
  · exact ⟨_, Minimal.load, List.all_eq_true.1 (by decide +kernel)⟩
  · exact ⟨_, Nature.load, List.all_eq_true.1 (by decide +kernel)⟩
  · exact ⟨_, Neon.load, List.all_eq_true.1 (by decide +kernel)⟩
  · exact ⟨_, Safari.load, List.all_eq_true.1 (by decide +kernel)⟩

/-- A test of the tree of a board. -/
private def testTree (rules : List Rule) (b : Board) (f : Tree → Bool) : Bool :=
  match ETree.create.set b with
  | .error _ => false
  | .ok e => match e.board.styled rules [] with
    | .error _ => false
    | .ok t => f t

private theorem testTree_true {rules : List Rule} {b : Board} {f : Tree → Bool} (h : testTree rules b f = true) :
    ∃ t, TreeOf rules b t ∧ f t = true := by
  unfold testTree at h
  split at h
  · cases h
  · rename_i e h1
    split at h
    · cases h
    · rename_i t h2
      exact ⟨t, ⟨e, h1, h2⟩, h⟩

/-- There are such trees: the start of a game in the style `safari`. -/
example : ∃ t, TreeOf Safari.rules opening t ∧ 4000 < t.xmlText.length := by
  obtain ⟨t, h, h'⟩ := testTree_true (rules := Safari.rules) (b := opening) (f := fun t => decide (4000 < t.xmlText.length))
    (by decide +kernel)
  exact ⟨t, h, of_decide_eq_true h'⟩

/-- Values are written as they are (base.py:202-203): with `field { text : A&B; }` in a style sheet the text is not XML. -/
theorem C78_false_amp : ∃ rules, loadCss t!"s/s.css" [t!"field { text : A&B; }"] = .ok rules ∧
    ∃ t, TreeOf rules opening t ∧ readXml t.xmlText = none := by
  refine ⟨[⟨t!"s/s.css", [⟨t!"field", none, none⟩], [(t!"text", t!"A&B")]⟩], by decide +kernel, ?_⟩
  obtain ⟨t, h, h'⟩ := testTree_true (f := fun t => (readXml t.xmlText).isNone) (b := opening)
    (rules := [⟨t!"s/s.css", [⟨t!"field", none, none⟩], [(t!"text", t!"A&B")]⟩]) (by decide +kernel)
  exact ⟨t, h, Option.isNone_iff_eq_none.1 h'⟩

/-- Nor is it if a colour is put into quotes. -/
theorem C78_false_quote : ∃ rules, loadCss t!"s/s.css" [t!"board { color : \"red\"; }"] = .ok rules ∧
    ∃ t, TreeOf rules opening t ∧ readXml t.xmlText = none := by
  refine ⟨[⟨t!"s/s.css", [⟨t!"board", none, none⟩], [(t!"color", t!"\"red\"")]⟩], by decide +kernel, ?_⟩
  obtain ⟨t, h, h'⟩ := testTree_true (f := fun t => (readXml t.xmlText).isNone) (b := opening)
    (rules := [⟨t!"s/s.css", [⟨t!"board", none, none⟩], [(t!"color", t!"\"red\"")]⟩]) (by decide +kernel)
  exact ⟨t, h, Option.isNone_iff_eq_none.1 h'⟩

/-- Every element of the tree of a board, in any style, is declared with its attributes and contains only what its
declaration allows, by the declarations `make_dtd` writes. -/
theorem C79_valid (rules : List Rule) (b : Board) (t : Tree) (ht : TreeOf rules b t) :
    Obeys (registered.map EName.decl) (describe t) := by
  obtain ⟨e, h1, h2⟩ := ht
  exact valid_sound (sound_of_board allows_all (fun _ _ _ _ _ _ _ _ _ _ _ => trivial) h1 h2)

/-- What was read obeys them as well. -/
theorem C79_read_partial (rules : List Rule) (h : ∀ r ∈ rules, PlainRule r = true) (b : Board) (t : Tree)
    (ht : TreeOf rules b t) : ∃ x, readXml t.xmlText = some x ∧ Obeys (registered.map EName.decl) x :=
  ⟨_, C78_read_partial rules h b t ht, C79_valid rules b t ht⟩

/-- The declared attributes are those the elements accept. -/
theorem C79_attrs (e : EName) (n : Text) : n ∈ e.decl.attrs ↔ (attlist e n).isSome = true := ⟨attlist_of, attrNames_of⟩

/-- Every element is declared once. -/
theorem C79_once : (registered.map fun e => e.decl.name).Nodup ∧ ∀ e : EName, e ∈ registered :=
  ⟨by decide, fun e => by cases e <;> decide⟩

/-- The file `backgammon.dtd` in the library, which the document type in the text refers to, is out of date: no board in any
style obeys it, since `top_frame` is in every `position` and it does not declare it. -/
theorem C79_false_file (rules : List Rule) (b : Board) (t : Tree) (ht : TreeOf rules b t) : ¬ Obeys shippedDtd (describe t) := by
  obtain ⟨e, h1, h2⟩ := ht
  have hsound := parts_board (parts_set allows_all (parts_create allows_all) h1)
  have htriv : ∀ r ∈ rules, RuleAllows (fun _ => True) r := fun _ _ _ _ _ _ _ _ _ _ _ => trivial
  unfold ETree.board at h2 hsound
  obtain ⟨e0, ks, -, h4, rfl⟩ := styled_inv h2
  obtain ⟨m, l1, -, h5, rfl⟩ := styledAll_inv h4
  obtain ⟨p, l2, h6, -, rfl⟩ := styledAll_inv h5
  have hp : Sound (fun _ => True) (fun _ => True) (Tree.node ⟨.position, [], []⟩ ([newElem .topFrame [], newElem .bottomFrame [],
      e.cubeholder, e.field.1, e.home.1, e.bar.2] ++ e.points ++ [e.bar.1, e.home.2, e.field.2])) := by
    cases hsound with
    | node _ _ _ hk => exact hk _ (List.mem_cons_of_mem _ (List.mem_cons_self ..))
  have hpn := (sound_styled htriv _ hp h6).2
  obtain ⟨e1, kp, -, h7, rfl⟩ := styled_inv h6
  obtain ⟨f, l3, h8, -, rfl⟩ := styledAll_inv h7
  have hf : Sound (fun _ => True) (fun _ => True) (newElem .topFrame []) := by
    cases hp with
    | node _ _ _ hk => exact hk _ (List.mem_append_left _ (List.mem_append_left _ (List.mem_cons_self ..)))
  have hfn := (sound_styled htriv _ hf h8).2
  intro hv
  unfold describe at hv
  rw [describeAll_eq] at hv
  cases hv with
  | node _ _ _ _ _ _ _ _ _ _ hk =>
    have hv := hk (describe (.node e1 (f :: l3))) (by simp)
    unfold describe at hv
    rw [describeAll_eq] at hv
    cases hv with
    | node d _ _ _ _ hd hn _ _ hc _ =>
      have hc := hc (describe f) (by simp)
      have e2 : (describe f).name = t!"top_frame" := by
        obtain ⟨ef, kf⟩ := f
        unfold describe
        exact congrArg EName.text hfn
      have e3 : d.name = t!"position" := hn.trans (congrArg EName.text hpn)
      rw [e2] at hc
      exact absurd hc ((by decide : ∀ d ∈ shippedDtd, d.name = t!"position" → t!"top_frame" ∉ d.content) d hd e3)

end Bglib
