import Verif.Check.Trees
import Verif.Lemmas.Theme.Neon
/-
The 20 trees recorded in `bglib/image/resource/neon/test`.
-/
namespace Bglib.Check
open Bglib Bglib.Img

/-- Position ID, match ID and digest of the files a.xml, b.xml, c.xml, d.xml, e.xml, f.xml, g.xml, h.xml, i.xml, j.xml, k.xml, l.xml, m.xml, n.xml, o.xml, q.xml, r.xml, rolled_31.xml, rolled_52.xml, rolled_64.xml. -/
def neonTrees : List (Text × Text × Nat) := [
  (t!"4Dl4ADqwt4MDIA", t!"MBmgAAAAAAAA", 0xe8db99e8784ae0c9f4450aba5acd240329415d051bf0528afcedb763507f4cf),
  (t!"4Dl4ADqwt4MDIA", t!"AQGgAAAAAAAA", 0x7d075d4b9f5915f9f4f8d8ac55e16e1b8cc84e070e76cf852bcd0d45767b105a),
  (t!"22wqECCw8+ABYA", t!"UQmgAAAAAAAA", 0x55067f83f441b90656f0c87465dd952e944458eb382bf8e7f318c9960d330a77),
  (t!"4HPiASHgc/ABMA", t!"UQn1AAAAAAAA", 0x664209916d7055c2429c13bc2a262b8c6ef76c19e85e06efd666d32038c19079),
  (t!"4HPKATDgc/ABMA", t!"cAngAAAAAAAA", 0x7244fc22e0f6f235892ea92e99b50b254f62bcd3d4e1d525fb5f5de0df91dfd6),
  (t!"mGfwATDgc/ABMA", t!"cCOgAAAAAAAA", 0x54d6dae1ff17d2fede7e77bd30a3fbb280a46f04e7eb63d2bd01b244e701b4f0),
  (t!"mGfwATDgc/ABMA", t!"cEOgAAAAAAAA", 0x17272da90a3308c48404cf74c50e075f9d41593c67842972c478ebc5cba8e968),
  (t!"mGfwATDgc/ABMA", t!"cGOgAAAAAAAA", 0x59778070154e3e8a298b272c5978130cb9de4373e71cef12cbf02546b0501dcd),
  (t!"PwkAACoBAAAAAA", t!"cAn2AAAAAAAA", 0x2c46b5d4d4ea9e4ddb17e5dd5e158dc0e65d8686f457bd13dee8420235aca3cd),
  (t!"FwAA4CcBAAAAAA", t!"MAH2AAAAAAAA", 0x343294f5eaa07a2aef09b26af345877976d06c3a6e4c858f0f6eff6a0ad940b8),
  (t!"4HPiASHgc/ABMA", t!"UQn1AAAAAAAA", 0x664209916d7055c2429c13bc2a262b8c6ef76c19e85e06efd666d32038c19079),
  (t!"NgAAACAEAAAAAA", t!"cAnyAAAAAAAA", 0x6552f37563b474adf24efe760bfb238044f5a9d56687cb29e94916e11409fa64),
  (t!"4PPIQRCYc4sBMA", t!"8Am1AEAAAAAA", 0x35e8ed4df4111f39b51c0b70c97f0572d2f9be81f9ff80c8e12659bf28343061),
  (t!"284lIADf7QAAYA", t!"8Im1AEAAAAAA", 0x6d808b2ab92d5264974e29514b9ed90297c0ba949d4cabd17500dad52da1a7),
  (t!"AAAAgAAAAAAAAA", t!"cAqgAFAAAAAA", 0x5d21159cd7a1ccda34f246edcc8b1fd6e5553eaa4cc6f8116da254992e531e6e),
  (t!"2ObIAEpDu5EBKA", t!"cInsAFAAIAAA", 0x83dc2a40d86098409eed3e8b9c6319d01d0f2af8b8c657c0b69e913c21db192),
  (t!"AAAAAAAAAAAAAA", t!"AAAAAAAAAAAA", 0x3d3d1a287fda5831648db62c0eb08fb12c9368a8f5e4de5207f57348ca57116),
  (t!"vzsAAFhu2xFABA", t!"QYksASAAIAAA", 0x49ff7548bede9ebaac102e029c31334e5282df29e0b814e38894fbde44fdf322),
  (t!"vzsAAFhu2xFABA", t!"QYkqASAAIAAA", 0x49ff7548bede9ebaac102e029c31334e5282df29e0bb6e438894fbdd44fdf322),
  (t!"vzsAAFhu2xFABA", t!"QQkzASAAIAAA", 0x49ff7548bede9ebaac102e029c31334e5282df29e0bc449b8894fbdf44fdf322)]

set_option maxRecDepth 100000 in
theorem neon_trees : loadCss Neon.path Neon.lines = .ok Neon.rules ∧ reproduces Neon.rules neonTrees = true :=
  ⟨Neon.load, by decide +kernel⟩

end Bglib.Check
