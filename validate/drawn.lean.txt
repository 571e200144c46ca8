import Verif.Model.Theme.Deutsche
import Verif.Model.Theme.Flower
import Verif.Model.Theme.Kotobuki
import Verif.Model.Theme.Matrix
import Verif.Model.Theme.Minimal
import Verif.Model.Theme.Nature
import Verif.Model.Theme.Neon
import Verif.Model.Theme.Safari
import Verif.Model.GnubgId
import Verif.Model.Draw
import Verif.Model.Mag
open Bglib Bglib.Img
def T (s : Text) : String := String.ofList s
def V : Value → String
  | .int n => toString n
  | .bool b => if b then "True" else "False"
  | .str t => T t
  | .float t => T t
partial def dump (indent : Nat) : Tree → IO Unit
  | .node e ks => do
    let pad := "".pushn ' ' indent
    IO.println s!"{pad}<{T e.name.text} {e.attrs.map fun x => (T x.1, V x.2)} {e.data.map T}"
    for k in ks do dump (indent+1) k
def sheets : List (String × Text × List Text) := [("deutsche", Deutsche.path, Deutsche.lines), ("flower", Flower.path, Flower.lines), ("kotobuki", Kotobuki.path, Kotobuki.lines), ("matrix", Matrix.path, Matrix.lines), ("minimal", Minimal.path, Minimal.lines), ("nature", Nature.path, Nature.lines), ("neon", Neon.path, Neon.lines), ("safari", Safari.path, Safari.lines)]
def tests : List (String × String × String) := [("a","4Dl4ADqwt4MDIA","MBmgAAAAAAAA"), ("b","4Dl4ADqwt4MDIA","AQGgAAAAAAAA"), ("c","22wqECCw8+ABYA","UQmgAAAAAAAA"), ("d","4HPiASHgc/ABMA","UQn1AAAAAAAA"), ("e","4HPKATDgc/ABMA","cAngAAAAAAAA"), ("f","mGfwATDgc/ABMA","cCOgAAAAAAAA"), ("g","mGfwATDgc/ABMA","cEOgAAAAAAAA"), ("h","mGfwATDgc/ABMA","cGOgAAAAAAAA"), ("i","PwkAACoBAAAAAA","cAn2AAAAAAAA"), ("j","FwAA4CcBAAAAAA","MAH2AAAAAAAA"), ("k","4HPiASHgc/ABMA","UQn1AAAAAAAA"), ("l","NgAAACAEAAAAAA","cAnyAAAAAAAA"), ("m","4PPIQRCYc4sBMA","8Am1AEAAAAAA"), ("n","284lIADf7QAAYA","8Im1AEAAAAAA"), ("o","AAAAgAAAAAAAAA","cAqgAFAAAAAA"), ("q","2ObIAEpDu5EBKA","cInsAFAAIAAA"), ("r","AAAAAAAAAAAAAA","AAAAAAAAAAAA"), ("s","AAAAwOfgA2AAAA","cAk7AAAAAAAA"), ("t","AAAAwOfgA2AAAA","cAkgAAAAAAAA"), ("u","AAAAwLeDgwEAAA","cAk7AAAAAAAA"), ("v","4HPhASjgc/ABMA","MAmgAAAAAAAA"), ("rolled_31","vzsAAFhu2xFABA","QYksASAAIAAA"), ("rolled_52","vzsAAFhu2xFABA","QYkqASAAIAAA"), ("rolled_64","vzsAAFhu2xFABA","QQkzASAAIAAA")]
def P (p : Int × Int) : String := s!"{p.1},{p.2}"
def O : Option Text → String
  | none => "None"
  | some t => T t
def showOp : Op → String
  | .text p s t f c => s!"text|{P p}|{P s}|{T t}|{T f}|{T c}"
  | .ellipse p s c => s!"ellipse|{P p}|{P s}|{O c}"
  | .polygon ps c => s!"polygon|{";".intercalate (ps.map P)}|{O c}"
  | .rect p s c => s!"rect|{P p}|{P s}|{T c}"
  | .image u s f p => s!"image|{P p}|{P s}|{T u}|{f}"
def main : IO Unit := do
  for (n, p, ls) in sheets do
    match loadCss p ls with
    | .error e => IO.println s!"LOADERR {n} {repr e}"
    | .ok rules =>
      for (k, pid, mid) in tests do
        IO.println s!"FILE {n} {k}"
        let r := gnubgDecode {} pid.toList mid.toList
        match r.err with
        | some e => IO.println s!"DECODE {repr e}"
        | none =>
          match drawSized rules (1000, 800) r.board with
          | .error x => IO.println s!"DRAW {repr x}"
          | .ok ops => for o in ops do IO.println (showOp o)
#eval main
