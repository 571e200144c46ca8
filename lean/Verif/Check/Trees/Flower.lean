import Verif.Check.Trees
import Verif.Lemmas.Theme.Flower
/-
The 20 trees recorded in `bglib/image/resource/flower/test`.
-/
namespace Bglib.Check
open Bglib Bglib.Img

/-- Position ID, match ID and digest of the files a.xml, b.xml, c.xml, d.xml, e.xml, f.xml, g.xml, h.xml, i.xml, j.xml, k.xml, l.xml, m.xml, n.xml, o.xml, q.xml, r.xml, rolled_31.xml, rolled_52.xml, rolled_64.xml. -/
def flowerTrees : List (Text × Text × Nat) := [
  (t!"4Dl4ADqwt4MDIA", t!"MBmgAAAAAAAA", 0x672f5edd32ed31da838e1da463b7af8c94bb031f94a75239a6228ac72ef5339e),
  (t!"4Dl4ADqwt4MDIA", t!"AQGgAAAAAAAA", 0x2fa95f682ff871c2938f3d906a38570bf3ed27a5acabea1ff4ea90fa6bfaf977),
  (t!"22wqECCw8+ABYA", t!"UQmgAAAAAAAA", 0x1aa17ce996e6c64d636183913685753b75dd6f0521458d96c0df1bcaf28d1baf),
  (t!"4HPiASHgc/ABMA", t!"UQn1AAAAAAAA", 0x56676c27b4effd16970047be5fd42b8b58fdc090d8576f2903f1ea5a91347dd6),
  (t!"4HPKATDgc/ABMA", t!"cAngAAAAAAAA", 0x50683f5ae2575378cbf5198d376342e7274d457a82f034dbc5500a9af3822e62),
  (t!"mGfwATDgc/ABMA", t!"cCOgAAAAAAAA", 0x2decc2c8ef4af7a774fde7a6d2ac4532f5e6129fd6e74d1fa304d3d08f10d2c6),
  (t!"mGfwATDgc/ABMA", t!"cEOgAAAAAAAA", 0x65812cd49c679491ac7d806c72b3bc6c76cab9d445bf39692eaaddcbe5a2c3c3),
  (t!"mGfwATDgc/ABMA", t!"cGOgAAAAAAAA", 0x1d1596e04984317be3fd193212bb33a5f7af6108b49725b2ba50e7c73c34b4d3),
  (t!"PwkAACoBAAAAAA", t!"cAn2AAAAAAAA", 0x66103208729f4c3a01536115f912ec5b857390292fbe11d6ffd10e9b8e698e9e),
  (t!"FwAA4CcBAAAAAA", t!"MAH2AAAAAAAA", 0x105b65bb5007eed1a4b004a59741b7ccacbd564588ae7838f7ff115abb5e3da8),
  (t!"4HPiASHgc/ABMA", t!"UQn1AAAAAAAA", 0x56676c27b4effd16970047be5fd42b8b58fdc090d8576f2903f1ea5a91347dd6),
  (t!"NgAAACAEAAAAAA", t!"cAnyAAAAAAAA", 0x6cedcb9142956dbbc68ebca48f45bb1d4607165c9e1dabbd900e564b5161d3f2),
  (t!"4PPIQRCYc4sBMA", t!"8Am1AEAAAAAA", 0x4d658bee0d9f2eb4ecf9985edf7eaf0e1426eb3dbd892e472d6af2bfc4e20102),
  (t!"284lIADf7QAAYA", t!"8Im1AEAAAAAA", 0x711d2d58a76d79111ad9cc42e63d7bc511fa30a24103c9dce56cb3f862cb816f),
  (t!"AAAAgAAAAAAAAA", t!"cAqgAFAAAAAA", 0x18d9f38704a6b957ea7f594accbe74032fd1ab0abd1c8ea34602121042e91c8f),
  (t!"2ObIAEpDu5EBKA", t!"cInsAFAAIAAA", 0x17de97ddd6a36325c07974fb51a17a8c2a2eff911e6e60bccb93a486478d1f63),
  (t!"AAAAAAAAAAAAAA", t!"AAAAAAAAAAAA", 0x49ca4b0e737700cf353c584941a3e51f7d182b27bc74584da0ad968e4ad61c9e),
  (t!"vzsAAFhu2xFABA", t!"QYksASAAIAAA", 0x3c626b599796d091c404ed99dab96af5007dfcd5bb8aa5efbc2ed5f8163d60f0),
  (t!"vzsAAFhu2xFABA", t!"QYkqASAAIAAA", 0x3c626b599796d091c404ed99dab96af5007dfcd5bb8dff4fbc2ed5f7163d60f0),
  (t!"vzsAAFhu2xFABA", t!"QQkzASAAIAAA", 0x3c626b599796d091c404ed99dab96af5007dfcd5bb8ed5a7bc2ed5f9163d60f0)]

set_option maxRecDepth 100000 in
theorem flower_trees : loadCss Flower.path Flower.lines = .ok Flower.rules ∧ reproduces Flower.rules flowerTrees = true :=
  ⟨Flower.load, by decide +kernel⟩

end Bglib.Check
