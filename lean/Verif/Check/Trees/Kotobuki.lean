import Verif.Check.Trees
import Verif.Lemmas.Theme.Kotobuki
/-
The 20 trees recorded in `bglib/image/resource/kotobuki/test`.
-/
namespace Bglib.Check
open Bglib Bglib.Img

/-- Position ID, match ID and digest of the files a.xml, b.xml, c.xml, d.xml, e.xml, f.xml, g.xml, h.xml, i.xml, j.xml, k.xml, l.xml, m.xml, n.xml, o.xml, q.xml, r.xml, rolled_31.xml, rolled_52.xml, rolled_64.xml. -/
def kotobukiTrees : List (Text × Text × Nat) := [
  (t!"4Dl4ADqwt4MDIA", t!"MBmgAAAAAAAA", 0x6ba34d03f25da1498c8af375d46e3a5f6c5c4b4d02e3862eb549a1e0009bd11a),
  (t!"4Dl4ADqwt4MDIA", t!"AQGgAAAAAAAA", 0x469f3f64cdd6412ffff1451b7298c71e05dc64710a152b5cd0501b9d79d6dc12),
  (t!"22wqECCw8+ABYA", t!"UQmgAAAAAAAA", 0x758854c846b37325a5c3c23bb22961747eae6598eb7401d935be6b06c9c7b42e),
  (t!"4HPiASHgc/ABMA", t!"UQn1AAAAAAAA", 0x1add062dde857ea8ba2a710df2c1f3ac43a2b481b6fe2438a6cece370f929e43),
  (t!"4HPKATDgc/ABMA", t!"cAngAAAAAAAA", 0x54c5ddfc1ce3fedcb07335b2c7f615d05e271e6c0f7216cdadf98391f7a72295),
  (t!"mGfwATDgc/ABMA", t!"cCOgAAAAAAAA", 0x365ecddb5b8036907c267d6b096ac347e06508c4181531941403b2c93b207b21),
  (t!"mGfwATDgc/ABMA", t!"cEOgAAAAAAAA", 0x20964d7421203e07b5a762123dd99b3429f0aece136bc3851943ba86f6d2ba6f),
  (t!"mGfwATDgc/ABMA", t!"cGOgAAAAAAAA", 0xacdcd0ce6c0457eef2846b972487320737c54d80ec255761e83c244b284f9bd),
  (t!"PwkAACoBAAAAAA", t!"cAn2AAAAAAAA", 0x14f13e6dcefd78d920da03a45979a53cde1d17f93bee62660808c9eebf08a4d3),
  (t!"FwAA4CcBAAAAAA", t!"MAH2AAAAAAAA", 0x6d927356b1fe5260bfe0dab61b2468d819a4e70669561f950d7f56a57267d33d),
  (t!"4HPiASHgc/ABMA", t!"UQn1AAAAAAAA", 0x1add062dde857ea8ba2a710df2c1f3ac43a2b481b6fe2438a6cece370f929e43),
  (t!"NgAAACAEAAAAAA", t!"cAnyAAAAAAAA", 0x46fa99592ba86a2e329573e1adf3c9c44c72b06920e17cc4c0ca7f493c54fbb7),
  (t!"4PPIQRCYc4sBMA", t!"8Am1AEAAAAAA", 0x435eacc683b54e99db5c72a8e3d5d8827b0efeda48d22c683c9f186e55a9bbe5),
  (t!"284lIADf7QAAYA", t!"8Im1AEAAAAAA", 0x41700b0fe25b037cca330efb7ba6d478157b29071471a49f535a8029d3a6a7b4),
  (t!"AAAAgAAAAAAAAA", t!"cAqgAFAAAAAA", 0x66720fb7e01516d4f2c952cea18ed3cfbad00a33c83f6f62736339c26a4310b5),
  (t!"2ObIAEpDu5EBKA", t!"cInsAFAAIAAA", 0x1210e0eb9b1598702e6edd79a9d37494dbc84c633b7e97ad066388dd4226773d),
  (t!"AAAAAAAAAAAAAA", t!"AAAAAAAAAAAA", 0x66a201123fb9a111d85078c922c5c659fb7dddf291868a7f4f48cdb8a7e513f4),
  (t!"vzsAAFhu2xFABA", t!"QYksASAAIAAA", 0x1738e4da2820ae33dbeaebb08c958530bf757d7a196cada8eef776f0262fd957),
  (t!"vzsAAFhu2xFABA", t!"QYkqASAAIAAA", 0x1738e4da2820ae33dbeaebb08c958530bf757d7a19700708eef776ef262fd957),
  (t!"vzsAAFhu2xFABA", t!"QQkzASAAIAAA", 0x1738e4da2820ae33dbeaebb08c958530bf757d7a1970dd60eef776f1262fd957)]

set_option maxRecDepth 100000 in
theorem kotobuki_trees : loadCss Kotobuki.path Kotobuki.lines = .ok Kotobuki.rules ∧ reproduces Kotobuki.rules kotobukiTrees = true :=
  ⟨Kotobuki.load, by decide +kernel⟩

end Bglib.Check
