def lit(s): return 't!"'+s.replace('\\','\\\\').replace('"','\\"')+'"'
i=[l.strip('\n') for l in open('/repo/bglib/protocol/fibs_test.in')]
o=[l.strip('\n') for l in open('/repo/bglib/protocol/fibs_test.out')]
pairs=list(zip(i,o))
out='''import Verif.Model.Cookie
/-
Evidence for the model of the classifier: the test of `protocol/fibs_test.py`, with the session of
`protocol/fibs_test.in` and the answers of `protocol/fibs_test.out`.
-/
namespace Bglib.Check
open Bglib

/-- The lines of the two files. -/
def fibsSession : List (Text × Text) := [
'''
out+=',\n'.join('  (%s, %s)'%(lit(a),lit(b)) for a,b in pairs)+''']

/-- The answers of a classifier to a session. -/
def answers (order : Phase → List Text) : Monster → List Text → List (Py Text)
  | _, [] => []
  | m, l :: ls => (m.makeCookie order l).1 :: answers order (m.makeCookie order l).2 ls

/-- One order of the class dictionaries: as written. -/
def asWritten (p : Phase) : List Text := (tableOf p).map (·.1)

/-- `cooike_test` -/
theorem fibs_test : answers asWritten .new (fibsSession.map (·.1)) = fibsSession.map (.ok ·.2) := by decide +kernel

end Bglib.Check
'''
open('/verif/lean/Verif/Check/Fibs.lean','w').write(out)
