import Verif.Model.Doctree
import Verif.Model.HtmlCompare
import Verif.Spec.Wiki
/-
Evidence for the models of documents and of the comparison of HTML: the tests of `doc/html_test.py` and
`doc/doctree_test.py`.
-/
namespace Bglib.Check
open Bglib Bglib.Doc Bglib.Spec

/-! `doc/html_test.py` -/

example : ([t!"<", t!">", t!"&", t!"?", t!"!&<>"].map escape) = [t!"&lt;", t!"&gt;", t!"&amp;", t!"?", t!"!&amp;&lt;&gt;"] := by
  decide +kernel

def quoteA : Text := t!"<blockquote class=\"citation\">\n<blockquote class=\"citation\">\n<p>\nSomeone's original text</p>\n</blockquote>\n<p>\nSomeone else's reply text</p>\n</blockquote>\nMy reply text"
def quoteB : Text := t!"<blockquote class=\"citation\">\n<blockquote class=\"citation\">\n<p>\nSomeone's original text\n</p>\n</blockquote>\n<p>\nSomeone else's reply text\n</p>\n</blockquote>\nMy reply text"

example : nomalize quoteB = quoteA := by decide +kernel
example : tupdict (nomalize quoteA) = [.tag t!"blockquote" [(t!"class", t!"citation")], .text [],
    .tag t!"blockquote" [(t!"class", t!"citation")], .text [], .tag t!"p" [], .text t!"Someone's original text", .tag t!"/p" [], .text [],
    .tag t!"/blockquote" [], .text [], .tag t!"p" [], .text t!"Someone else's reply text", .tag t!"/p" [], .text [],
    .tag t!"/blockquote" [], .text t!"My reply text"] := by decide +kernel
example : tupdict t!"<a href=\"http://www.tonic-water.com/\" class=\"ext-link\" title=\"title\"><span class=\"icon\">http://www.tonic-water.com/</span></a>" =
    [.tag t!"a" [(t!"href", t!"http://www.tonic-water.com/"), (t!"class", t!"ext-link"), (t!"title", t!"title")],
      .tag t!"span" [(t!"class", t!"icon")], .text t!"http://www.tonic-water.com/", .tag t!"/span" [], .tag t!"/a" []] := by decide +kernel
/-- In the order of the text; the tests give the order of a Python 2 dictionary. -/
example : tupdict t!"<tr colspan=\"2\"><tr class=\"hoge\" colspan=\"2\"><tr class=\"hoge\" colspan=\"2\" rowspan=\"3\">" =
    [.tag t!"tr" [(t!"colspan", t!"2")], .tag t!"tr" [(t!"class", t!"hoge"), (t!"colspan", t!"2")],
      .tag t!"tr" [(t!"class", t!"hoge"), (t!"colspan", t!"2"), (t!"rowspan", t!"3")]] := by decide +kernel
example : htmlSame id quoteA quoteB = true := by decide +kernel
/-- `<p height='2'>` against `<p>`, `<p height="2">` against `<p width="2">` -/
example : htmlSame id t!"<blockquote class=\"citation\">\n<blockquote class=\"citation\">\n<p height='2'>\nSomeone's original text</p>\n</blockquote>\n<p>\nSomeone else's reply text</p>\n</blockquote>\nMy reply text" quoteB = false := by decide +kernel
example : htmlSame id t!"<blockquote class=\"citation\">\n<blockquote class=\"citation\">\n<p height=\"2\">\nSomeone's original text</p>\n</blockquote>\n<p>\nSomeone else's reply text</p>\n</blockquote>\nMy reply text" t!"<blockquote class=\"citation\">\n<blockquote class=\"citation\">\n<p width=\"2\">\nSomeone's original text\n</p>\n</blockquote>\n<p>\nSomeone else's reply text\n</p>\n</blockquote>\nMy reply text" = false := by decide +kernel

/-! `doc/doctree_test.py` -/

example : Klass.italic.accepts .bold ∧ Klass.bold.accepts .italic ∧ Klass.itemize.accepts .bold ∧ (Klass.list none).accepts .itemize ∧
    (Klass.list none).accepts .bold ∧ ¬ Klass.bold.accepts (.list none) ∧ ¬ Klass.bold.accepts .itemize ∧
    Klass.definitionBody.accepts .anchor := by decide +kernel

/-- The operations of `BgWikiElementNodeTest.test_append_text` and the HTML. -/
example : ((Editor.start.run [.text t!"ho", .text t!"ge", .enter .bold, .text t!"pi", .text t!"yo", .leave .bold, .text t!"foo",
      .text t!"bar", .done]).bind Editor.html).map (fun r => htmlSame id (htmlText r) t!"hoge<strong>piyo</strong>foobar") = .ok true := by decide +kernel
example : ((Editor.start.run [.text t!"ho", .text t!"ge", .enter .element, .text t!"pi", .text t!"yo", .leave .element, .text t!"foo",
      .text t!"bar", .done]).map fun e => e.nodes.map fun n => (n.klass, n.children, n.text)) =
    .ok [(.root, [1, 2, 4], []), (.text, [], t!"hoge"), (.element, [3], []), (.text, [], t!"piyo"), (.text, [], t!"foobar")] := by
  decide +kernel
example : ((Editor.start.run [.enter .element, .enter .bold, .leave .element, .leave .element]).map (·.current)) = .ok (some 0) := by decide +kernel

end Bglib.Check
