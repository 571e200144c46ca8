import Verif.Check.Trees
import Verif.Lemmas.Theme.Minimal
/-
The 20 trees recorded in `bglib/image/resource/minimal/test`.
-/
namespace Bglib.Check
open Bglib Bglib.Img

/-- Position ID, match ID and digest of the files a.xml, b.xml, c.xml, d.xml, e.xml, f.xml, g.xml, h.xml, i.xml, j.xml, k.xml, l.xml, m.xml, n.xml, o.xml, q.xml, r.xml, rolled_31.xml, rolled_52.xml, rolled_64.xml. -/
def minimalTrees : List (Text × Text × Nat) := [
  (t!"4Dl4ADqwt4MDIA", t!"MBmgAAAAAAAA", 0x7bce579f20da83fdc4c6b3f06c3895674a85fb2e7e17a073043e0e95b62873e),
  (t!"4Dl4ADqwt4MDIA", t!"AQGgAAAAAAAA", 0x5712a9a6c79ad414755069fdd66b1e004e9a2376d561eec28eb32f3cc06855ab),
  (t!"22wqECCw8+ABYA", t!"UQmgAAAAAAAA", 0x684b91f7d428c30a580f821cbf4b19f6410eb83822be77728a56897fe0d7e168),
  (t!"4HPiASHgc/ABMA", t!"UQn1AAAAAAAA", 0x58d0cc69e48cc8a65ecdda0014e64bdec960782ea8b82782a2472af4bad437f9),
  (t!"4HPKATDgc/ABMA", t!"cAngAAAAAAAA", 0x5310807d1e10e77a4ec8400e4b8c4c149b74c36af096b68d5bc831c7d0b4b7a5),
  (t!"mGfwATDgc/ABMA", t!"cCOgAAAAAAAA", 0x691dd933231e4686fcd73fc89f6c2bcecd7cf342b0ff7418a3fba9936815c1ab),
  (t!"mGfwATDgc/ABMA", t!"cEOgAAAAAAAA", 0x60810b2bbe3e68e7410c0ad46a09aa6b9c67ee8bafacaaa9500e99b25d173f9),
  (t!"mGfwATDgc/ABMA", t!"cGOgAAAAAAAA", 0x22f2483254a98695eb4a4191edd5097ea6100a8ec4f6213c860629a2e38d2634),
  (t!"PwkAACoBAAAAAA", t!"cAn2AAAAAAAA", 0x32276e2a17be01b878dba5f564585df029d9578014c7c6b6225068394c77f7cd),
  (t!"FwAA4CcBAAAAAA", t!"MAH2AAAAAAAA", 0x1ac72114da9e3fb3f695dc57a1ea28bc6631aefd970832bacea435abeab0b264),
  (t!"4HPiASHgc/ABMA", t!"UQn1AAAAAAAA", 0x58d0cc69e48cc8a65ecdda0014e64bdec960782ea8b82782a2472af4bad437f9),
  (t!"NgAAACAEAAAAAA", t!"cAnyAAAAAAAA", 0x5f06fcc342eeb3854ab743a966a2ac432256399e5e21b296f1b65d436cf664bb),
  (t!"4PPIQRCYc4sBMA", t!"8Am1AEAAAAAA", 0x26f96d3da528f032987e1e9f3808eae6caef7ffb8c829a62a1b735cf0f5a7a71),
  (t!"284lIADf7QAAYA", t!"8Im1AEAAAAAA", 0x3aafd585ea417623e81434b3631b5cf59fc2349d6025e1c1cb5fde686cd55cc7),
  (t!"AAAAgAAAAAAAAA", t!"cAqgAFAAAAAA", 0x3c33da966771c875294a5811cb1a200c01061821c9f7e3e1125cff12a3792e50),
  (t!"2ObIAEpDu5EBKA", t!"cInsAFAAIAAA", 0x72dc2c44c44bbb005f085b19cd08e48a20c543da0a794f72f347e9879d4f9820),
  (t!"AAAAAAAAAAAAAA", t!"AAAAAAAAAAAA", 0x59adfe181829c0e761c9f2cb0e4ac9243c8431c55412b9a112caa542780c4f6a),
  (t!"vzsAAFhu2xFABA", t!"QYksASAAIAAA", 0x1a5b3a6026f45fd4a48e7048ca4cbf8315280b8ac832198a229677834e83982a),
  (t!"vzsAAFhu2xFABA", t!"QYkqASAAIAAA", 0x1a5b3a6026f45fd4a48e7048ca4cbf8315280b8ac832198d7bf677824e83982a),
  (t!"vzsAAFhu2xFABA", t!"QQkzASAAIAAA", 0x1a5b3a6026f45fd4a48e7048ca4cbf8315280b8ac832198e524e77844e83982a)]

set_option maxRecDepth 100000 in
theorem minimal_trees : loadCss Minimal.path Minimal.lines = .ok Minimal.rules ∧ reproduces Minimal.rules minimalTrees = true :=
  ⟨Minimal.load, by decide +kernel⟩

end Bglib.Check
