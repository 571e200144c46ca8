import Verif.Check.Trees
import Verif.Lemmas.Theme.Deutsche
/-
The 20 trees recorded in `bglib/image/resource/deutsche/test`.
-/
namespace Bglib.Check
open Bglib Bglib.Img

/-- Position ID, match ID and digest of the files a.xml, b.xml, c.xml, d.xml, e.xml, f.xml, g.xml, h.xml, i.xml, j.xml, k.xml, l.xml, m.xml, n.xml, o.xml, q.xml, r.xml, rolled_31.xml, rolled_52.xml, rolled_64.xml. -/
def deutscheTrees : List (Text × Text × Nat) := [
  (t!"4Dl4ADqwt4MDIA", t!"MBmgAAAAAAAA", 0x9f49fd8f6313d3119eafa3b6251ec013f6a154c4a22d5ad32c4b11faefcd66a),
  (t!"4Dl4ADqwt4MDIA", t!"AQGgAAAAAAAA", 0x2f2ba42fb9f01f7d290e02c5d5057c8e9981f5f5fee25dda721581f86f232ba1),
  (t!"22wqECCw8+ABYA", t!"UQmgAAAAAAAA", 0x63e479cc6e403afdb0e1f645bcf902a91b98b7c2a7d8c6b3773394c729a058d5),
  (t!"4HPiASHgc/ABMA", t!"UQn1AAAAAAAA", 0x7b6de575fa15147c5fe0025f7c4472333cbe9e56c7fefd02c14c2644823fdcdb),
  (t!"4HPKATDgc/ABMA", t!"cAngAAAAAAAA", 0x73aa6ae6b04e0e9c0751cfe02af65a0678dc2ce1a0c35859f2b52e7b9c3d867b),
  (t!"mGfwATDgc/ABMA", t!"cCOgAAAAAAAA", 0x5f19176eb6c9247837bcdf1f4fb7b43661cd979a1d21193c3e19e3c06296a443),
  (t!"mGfwATDgc/ABMA", t!"cEOgAAAAAAAA", 0x77deb7762e02a55cdef14df73c013fdc6bc8ee2c0e265943fbd595ffad5ae130),
  (t!"mGfwATDgc/ABMA", t!"cGOgAAAAAAAA", 0x10a4577da53c26418625bccf284acb8275c444bdff2b994bb991483ef81f1e30),
  (t!"PwkAACoBAAAAAA", t!"cAn2AAAAAAAA", 0xe3085b04533fce95df37b399cabaa32e9e5144df219942e8099328bc5339fb5),
  (t!"FwAA4CcBAAAAAA", t!"MAH2AAAAAAAA", 0x1e3395dc91a991c406cc4bf9b752b6541a533dfb100ad3e5fb2764da36a2247),
  (t!"4HPiASHgc/ABMA", t!"UQn1AAAAAAAA", 0x7b6de575fa15147c5fe0025f7c4472333cbe9e56c7fefd02c14c2644823fdcdb),
  (t!"NgAAACAEAAAAAA", t!"cAnyAAAAAAAA", 0x5a9af3e6227cbea4bc1e7f40c5aced352f595f58d9f3650a78d81e863f5851ff),
  (t!"4PPIQRCYc4sBMA", t!"8Am1AEAAAAAA", 0x3aba41761c73199919092bb64adbbcc328e07794d7da8774dfcf59080380ef2f),
  (t!"284lIADf7QAAYA", t!"8Im1AEAAAAAA", 0x5a01c497bead2c9eabd9b30c3c167128c0ac006a08b414d68c1b6c940a002fa7),
  (t!"AAAAgAAAAAAAAA", t!"cAqgAFAAAAAA", 0x586a2a904cfd557e0cbe8ed78d5976deaac21196c879cc99a1d2516f80730289),
  (t!"2ObIAEpDu5EBKA", t!"cInsAFAAIAAA", 0x792d04fdc00e92ed9f38bcc3a7fc50713a3379f9f9e40b6b8032674af6a54a49),
  (t!"AAAAAAAAAAAAAA", t!"AAAAAAAAAAAA", 0x63fd0e28619d988ff3c22b490f0885be228bf7e1b757dbb208b7949cce634ee0),
  (t!"vzsAAFhu2xFABA", t!"QYksASAAIAAA", 0x7d6cdf2f3e55df0e07f405305008b516736713931fa6065a662b132b2b0d3cc),
  (t!"vzsAAFhu2xFABA", t!"QYkqASAAIAAA", 0x7d6cdf2f3e55df0e07f405305008b516736713931fa6068ffc2b131b2b0d3cc),
  (t!"vzsAAFhu2xFABA", t!"QQkzASAAIAAA", 0x7d6cdf2f3e55df0e07f405305008b516736713931fa6069d61ab133b2b0d3cc)]

set_option maxRecDepth 100000 in
theorem deutsche_trees : loadCss Deutsche.path Deutsche.lines = .ok Deutsche.rules ∧ reproduces Deutsche.rules deutscheTrees = true :=
  ⟨Deutsche.load, by decide +kernel⟩

end Bglib.Check
