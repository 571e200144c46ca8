import Verif.Model.ImportTable
/-
What names can be used when modules of the library are imported in any order.
-/
namespace Bglib.Spec
open Import

/-- The states of a program that has imported modules of the library, in any order and as often as it
likes, and has gone on when an import failed. -/
inductive AfterImports (l : Library) : State → Prop
  | start : AfterImports l []
  | next {s s' : State} {p : Path} {b : Bool} : AfterImports l s → importing l p s = some (s', b) → AfterImports l s'

/-- The module can be imported. -/
def CanImport (l : Library) (s : State) (m : Module) : Prop := ∃ s', importing l m.path s = some (s', true)

/-- The value of the name with attributes is found when a function of the module uses it. -/
def Found (s : State) (m : Module) (r : List Name) : Prop := (resolve s m.path r).isSome

/-- Every module can be imported whatever was imported before, and all names that its functions use are
found then. -/
def AllNamesFound (l : Library) : Prop := ∀ s, AfterImports l s → ∀ m ∈ l, CanImport l s m ∧
  (s.space m.path ≠ none → ∀ r ∈ m.later, Found s m r)

/-- The names that are never found, with the modules whose functions use them: `doc/fuzzing.py:81-82`,
`encoding/FIBS.py:121-184`, `encoding/bearoff/nori.py:65`, `image/base.py:280`, `image/wx2.py:59,78`,
`protocol/networkplayer.py:154,222`, `record/gnubg.py:60`. -/
def lostNames : List (Path × List Name) :=
  [(m!"bglib.doc.fuzzing", p!"iter_subset"), (m!"bglib.doc.fuzzing", p!"g"), (m!"bglib.doc.fuzzing", p!"is_ok"),
   (m!"bglib.encoding.FIBS", p!"bglib.model.constants.on_going"), (m!"bglib.encoding.FIBS", p!"INVALID"),
   (m!"bglib.encoding.FIBS", p!"bglib.model.move.Move"), (m!"bglib.encoding.FIBS", p!"bglib.model.constants.you"),
   (m!"bglib.encoding.FIBS", p!"bglib.model.util.move_pton"),
   (m!"bglib.encoding.FIBS", p!"bglib.model.move.PartialMove"),
   (m!"bglib.encoding.FIBS", p!"bglib.model.constants.him"),
   (m!"bglib.encoding.bearoff.nori", p!"human_readable_eq"), (m!"bglib.image.base", p!"nane"),
   (m!"bglib.image.wx2", p!"ImageFont.truetype"), (m!"bglib.image.wx2", p!"Image.FLIP_TOP_BOTTOM"),
   (m!"bglib.protocol.networkplayer", p!"f.readline"), (m!"bglib.protocol.networkplayer", p!"re.compile"),
   (m!"bglib.record.gnubg", p!"bglib.model.board.board")]

/-- The module that cannot be imported, `image/wxpython.py:207`. -/
def brokenModule : Path := m!"bglib.image.wxpython"

end Bglib.Spec
