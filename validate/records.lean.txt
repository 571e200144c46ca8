import Verif.Model.SnowieLine
open Bglib Bglib.Snowie
def main : IO Unit := do
  let fs ← System.FilePath.readDir "/repo/bglib/record/snowietxt"
  let mut ok := 0
  let mut bad := 0
  let mut nl := 0
  let mut cnt : List (String × Nat) := []
  for f in fs do
    if f.path.extension = some "txt" then
    let b ← IO.FS.readBinFile f.path
    let txt := b.toList.map fun x => Char.ofNat x.toNat
    let rec lines (l : List Char) (cur : List Char) (fuel : Nat) : List (List Char) := match fuel, l with
      | 0, _ => []
      | _, [] => if cur.isEmpty then [] else [cur.reverse]
      | n+1, '\n' :: r => ('\n' :: cur).reverse :: lines r [] n
      | n+1, c :: r => lines r (c :: cur) n
    let ls := (lines txt [] (txt.length+1)).map lineOf
    nl := nl + ls.length
    match validate 0 ls with
    | .ok _ => ok := ok + 1
    | .error e => bad := bad + 1; IO.println s!"{f.path} {repr e}"
    for l in ls do
      let k := match l.kind with | .empty => "empty" | .matchLength => "ml" | .gameHeader => "gh" | .playerHeader => "ph" | .moves _ => "mv" | .result => "res" | .bad => "bad"
      cnt := match cnt.lookup k with | some n => (k, n+1) :: cnt.filter (·.1 != k) | none => (k,1) :: cnt
  IO.println s!"accepted {ok} refused {bad} lines {nl} {cnt}"
#eval main
