import Verif.Check.Trees
import Verif.Lemmas.Theme.Nature
/-
The 20 trees recorded in `bglib/image/resource/nature/test`.
-/
namespace Bglib.Check
open Bglib Bglib.Img

/-- Position ID, match ID and digest of the files a.xml, b.xml, c.xml, d.xml, e.xml, f.xml, g.xml, h.xml, i.xml, j.xml, k.xml, l.xml, m.xml, n.xml, o.xml, q.xml, r.xml, rolled_31.xml, rolled_52.xml, rolled_64.xml. -/
def natureTrees : List (Text × Text × Nat) := [
  (t!"4Dl4ADqwt4MDIA", t!"MBmgAAAAAAAA", 0x3e7b84c3cbd2204d215169bc9362378c0c76088981a3b8756b617ff2220fa17b),
  (t!"4Dl4ADqwt4MDIA", t!"AQGgAAAAAAAA", 0x666a33480197888e9680a540426253958f425b80257549ecf5f9958e8c71e9e0),
  (t!"22wqECCw8+ABYA", t!"UQmgAAAAAAAA", 0x9dfdbdb951deb16ef5587f21d4028ee20bf69dac8d4acbd4b982e023a2dc979),
  (t!"4HPiASHgc/ABMA", t!"UQn1AAAAAAAA", 0x4cddd1e9a2475f83f57f59667bbe61263c5c1180171a4f67108615079ae1e4b4),
  (t!"4HPKATDgc/ABMA", t!"cAngAAAAAAAA", 0x10a1c12a9a232f98bdef40c49f483de8f420ea341923570ab9d10e8bc4e92d7c),
  (t!"mGfwATDgc/ABMA", t!"cCOgAAAAAAAA", 0x514c1efa9caba587ffd595a10632beebba88513ac37368cdcd799cf97c57c157),
  (t!"mGfwATDgc/ABMA", t!"cEOgAAAAAAAA", 0x6de909321c446b28074ccf21ead9f35a92749ac6697d64245f6aa23984157d05),
  (t!"mGfwATDgc/ABMA", t!"cGOgAAAAAAAA", 0xa85f3699bdd30c80ec408a2cf8127c96a60e4520f875f7af15ba7798bd338c6),
  (t!"PwkAACoBAAAAAA", t!"cAn2AAAAAAAA", 0x420859c1178d42dab806090062b5b4f562a2b34639abfad8532bb73075bb2c8f),
  (t!"FwAA4CcBAAAAAA", t!"MAH2AAAAAAAA", 0x5e1e40e15eeb569ddb069daa4f185c3311df96baafab8cd7e553afad5ffc7790),
  (t!"4HPiASHgc/ABMA", t!"UQn1AAAAAAAA", 0x4cddd1e9a2475f83f57f59667bbe61263c5c1180171a4f67108615079ae1e4b4),
  (t!"NgAAACAEAAAAAA", t!"cAnyAAAAAAAA", 0x3025a299cedf20cb65e91f7fd5a4bacaccd870a0b82701074cb42e9611a9942a),
  (t!"4PPIQRCYc4sBMA", t!"8Am1AEAAAAAA", 0x76f4d49dd0988b2fa163a37b4a8a116c47eff1eacaf5e90d2af0050c48357554),
  (t!"284lIADf7QAAYA", t!"8Im1AEAAAAAA", 0x5e582a05d7a1b420679dfd14774108b603b343a545f9ba6e8833e28dae6c1db0),
  (t!"AAAAgAAAAAAAAA", t!"cAqgAFAAAAAA", 0x31ddcdf65980ec6b7c54f5ff0800d28ecfda12f86372209e89db68896340dbeb),
  (t!"2ObIAEpDu5EBKA", t!"cInsAFAAIAAA", 0x706921b5feeac69ebcc2878dba602885f85318ea10eab0021e6736450c74fee4),
  (t!"AAAAAAAAAAAAAA", t!"AAAAAAAAAAAA", 0x3bde78131b16652e50dede4da4464826ef306ba8f2b412e7aea3552f2da771f),
  (t!"vzsAAFhu2xFABA", t!"QYksASAAIAAA", 0x5d6621e8b6b5d3bc8227bac41aa9495af9d9346437d51d4af85d2ec4b7cfd338),
  (t!"vzsAAFhu2xFABA", t!"QYkqASAAIAAA", 0x5d6621e8b6b5d3bc8227bac41aa9495af9d9346437d876aaf85d2ec3b7cfd338),
  (t!"vzsAAFhu2xFABA", t!"QQkzASAAIAAA", 0x5d6621e8b6b5d3bc8227bac41aa9495af9d9346437d94d02f85d2ec5b7cfd338)]

set_option maxRecDepth 100000 in
theorem nature_trees : loadCss Nature.path Nature.lines = .ok Nature.rules ∧ reproduces Nature.rules natureTrees = true :=
  ⟨Nature.load, by decide +kernel⟩

end Bglib.Check
