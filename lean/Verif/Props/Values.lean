import Verif.Model.Heap
/-
C23: boards are values.
-/
namespace Bglib

theorem run_preserves {h : Heap} {op : HeapOp} {r : Nat} {o : Obj} (hr : h[r]? = some o)
    (hne : ∀ e, op = .edit r e → ∃ b, o = .board b) : (op.run h).st[r]? = some o := by
  have hlt : r < h.length := by
    rcases Nat.lt_or_ge r h.length with hl | hl
    · exact hl
    · rw [List.getElem?_eq_none hl] at hr; cases hr
  cases op with
  | newBoard kw => simp [HeapOp.run, List.getElem?_append_left hlt, hr]
  | newEditor src kw =>
    cases src with
    | none => simp [HeapOp.run, List.getElem?_append_left hlt, hr]
    | some s =>
      simp only [HeapOp.run]
      split <;> simp [List.getElem?_append_left hlt, hr]
  | freeze s =>
    simp only [HeapOp.run]
    split
    · split <;> simp [List.getElem?_append_left hlt, hr]
    · simp [hr]
  | edit s e =>
    simp only [HeapOp.run]
    by_cases c : s = r
    · subst c
      obtain ⟨b, rfl⟩ := hne e rfl
      simp only [hr]
      split <;> simp [hr]
    · split
      · simp [List.getElem?_set_ne c, hr]
      · split <;> simp [hr]
      · simp [hr]

/-- **C23**: a frozen board never changes: whatever history of constructions, freezes, edits and
assignments follows (including assignments to the board itself), it holds the same attributes. -/
theorem C23_frozen (h : Heap) (ops : List HeapOp) (r : Nat) (b : Board) (hr : h[r]? = some (.board b)) :
    (runHistory h ops)[r]? = some (.board b) := by
  induction ops generalizing h with
  | nil => exact hr
  | cons op ops ih => exact ih _ (run_preserves hr (fun _ _ => ⟨b, rfl⟩))

/-- **C23**: copies are independent: a history that never edits the editor `r` leaves it as it was, even
if it edits the objects `r` was copied from or that were copied from it. -/
theorem C23_independent (h : Heap) (ops : List HeapOp) (r : Nat) (o : Obj) (hr : h[r]? = some o)
    (hn : ∀ e, HeapOp.edit r e ∉ ops) : (runHistory h ops)[r]? = some o := by
  induction ops generalizing h with
  | nil => exact hr
  | cons op ops ih =>
    refine ih _ (run_preserves hr ?_) (fun e he => hn e (by simp [he]))
    intro e he; exact absurd (by simp [he]) (hn e)

/-- **C23**: assigning to a frozen board raises `TypeError` and changes nothing. -/
theorem C23_immutable (h : Heap) (r : Nat) (b : Board) (a : Attr) (hr : h[r]? = some (.board b)) :
    HeapOp.run h (.edit r (.set a)) = ⟨h, some .typeError⟩ := by
  simp [HeapOp.run, hr]

/-- **C23**: freezing an editor with only documented attributes gives a new board with exactly the
editor's attributes; editing a board's copy and freezing without edits gives an equal board. -/
theorem C23_freeze (h : Heap) (r : Nat) (b : Board) (hr : h[r]? = some (.editor b [])) :
    HeapOp.run h (.freeze r) = ⟨h ++ [.board b], none⟩ := by
  simp [HeapOp.run, hr, freezeObj]

theorem C23_thaw_freeze (h : Heap) (r : Nat) (b : Board) (hr : h[r]? = some (.board b)) :
    runHistory h [.newEditor (some r) [], .freeze h.length] = h ++ [.editor b [], .board b] := by
  simp [runHistory, HeapOp.run, hr, freezeObj]

/-- **C23**: an undocumented attribute makes freezing fail with `AssertionError`. -/
theorem C23_freeze_extra (h : Heap) (r : Nat) (b : Board) (n : String) (x : List String)
    (hr : h[r]? = some (.editor b (n :: x))) :
    HeapOp.run h (.freeze r) = ⟨h, some .assertion⟩ := by
  simp [HeapOp.run, hr, freezeObj]

/-- **C23**: an edit changes the editor it is applied to and nothing else: no object appears, every other
object is as it was, and this one holds what the edit makes of its documented attributes. -/
theorem C23_edit (h : Heap) (r : Nat) (b : Board) (x : List String) (e : Edit)
    (hr : h[r]? = some (.editor b x)) :
    (HeapOp.run h (.edit r e)).st.length = h.length ∧
    (HeapOp.run h (.edit r e)).err = (e.run b).err ∧
    (∀ s, s ≠ r → (HeapOp.run h (.edit r e)).st[s]? = h[s]?) ∧
    ((HeapOp.run h (.edit r e)).st[r]?).map Obj.attrs = some (e.run b).st := by
  have hlt : r < h.length := by
    rcases Nat.lt_or_ge r h.length with hl | hl
    · exact hl
    · rw [List.getElem?_eq_none hl] at hr; cases hr
  refine ⟨by simp [HeapOp.run, hr], by simp [HeapOp.run, hr], ?_, ?_⟩
  · intro s hs
    simp [HeapOp.run, hr, List.getElem?_set_ne (Ne.symm hs)]
  · simp only [HeapOp.run, hr, List.getElem?_set_self hlt, Option.map_some, Obj.attrs]

/-- **C23**: once a name that is not documented has been assigned in an editor, no later history makes it
possible to freeze that editor. -/
theorem C23_never_frozen (h : Heap) (r : Nat) (b : Board) (x : List String) (n : String)
    (ops : List HeapOp) (hr : h[r]? = some (.editor b x)) :
    (HeapOp.run (runHistory h (.edit r (.setExtra n) :: ops)) (.freeze r)).err = some .assertion := by
  have hlt : r < h.length := by
    rcases Nat.lt_or_ge r h.length with hl | hl
    · exact hl
    · rw [List.getElem?_eq_none hl] at hr; cases hr
  have key : ∀ (ops : List HeapOp) (h : Heap), (∃ b n x, h[r]? = some (Obj.editor b (n :: x))) →
      ∃ b n x, (runHistory h ops)[r]? = some (Obj.editor b (n :: x)) := by
    intro ops
    induction ops with
    | nil => exact fun _ hh => hh
    | cons op ops ih =>
      rintro h ⟨b, n, x, hh⟩
      refine ih _ ?_
      have hl : r < h.length := by
        rcases Nat.lt_or_ge r h.length with hl | hl
        · exact hl
        · rw [List.getElem?_eq_none hl] at hh; cases hh
      by_cases c : ∃ e, op = .edit r e
      · obtain ⟨e, rfl⟩ := c
        cases e <;> exact ⟨_, _, _, by
          simp only [HeapOp.run, hh, List.getElem?_set_self hl]; rfl⟩
      · exact ⟨b, n, x, run_preserves hh (fun e he => absurd ⟨e, he⟩ c)⟩
  obtain ⟨b', n', x', hf⟩ := key ops (HeapOp.run h (.edit r (.setExtra n))).st
    ⟨_, n, x, by simp only [HeapOp.run, hr, List.getElem?_set_self hlt]; rfl⟩
  show (HeapOp.run (runHistory (HeapOp.run h (.edit r (.setExtra n))).st ops) (.freeze r)).err = _
  rw [C23_freeze_extra _ _ _ _ _ hf]

/-- **C23**: the copy of an editor can be frozen exactly if the editor can be frozen, and then the two
frozen boards are equal. -/
theorem C23_copy (h : Heap) (r : Nat) (b : Board) (x : List String) (hr : h[r]? = some (.editor b x)) :
    (HeapOp.run (runHistory h [.newEditor (some r) []]) (.freeze h.length)).err
      = (HeapOp.run h (.freeze r)).err ∧
    ((HeapOp.run h (.freeze r)).err = none →
      runHistory h [.newEditor (some r) [], .freeze r, .freeze h.length]
        = h ++ [.editor b [], .board b, .board b]) := by
  have hlt : r < h.length := by
    rcases Nat.lt_or_ge r h.length with hl | hl
    · exact hl
    · rw [List.getElem?_eq_none hl] at hr; cases hr
  cases x with
  | nil =>
    simp [runHistory, HeapOp.run, hr, freezeObj, List.getElem?_append_left hlt]
  | cons n x =>
    simp [runHistory, HeapOp.run, hr, freezeObj]

example : (runHistory [] [.newEditor none [], .edit 0 (.setExtra "note"), .newEditor (some 0) [],
    .freeze 0, .freeze 1, .freeze 2]).length = 2 := by decide

/-- The documented attributes agree, one by one. -/
def SameAttrs (x y : Board) : Prop :=
  x.position.1 = y.position.1 ∧ x.position.2 = y.position.2 ∧ x.cube = y.cube ∧
  x.cubeOwner = y.cubeOwner ∧ x.onAction = y.onAction ∧ x.crawford = y.crawford ∧
  x.gameState = y.gameState ∧ x.onInnerAction = y.onInnerAction ∧ x.doubled = y.doubled ∧
  x.resignOffer = y.resignOffer ∧ x.rolled.1 = y.rolled.1 ∧ x.rolled.2 = y.rolled.2 ∧
  x.matchLength = y.matchLength ∧ x.score.1 = y.score.1 ∧ x.score.2 = y.score.2

/-- **C23**: `==` between boards (and between editors) is true exactly if all documented attributes are
equal, `!=` is its negation, and comparing a board with an editor raises `TypeError`. -/
theorem C23_eq (x y : Board) (e f : List String) :
    (Obj.eq (.board x) (.board y) = .ok true ↔ SameAttrs x y) ∧
    (Obj.eq (.editor x e) (.editor y f) = .ok true ↔ SameAttrs x y) ∧
    (Obj.ne (.board x) (.board y) = .ok true ↔ ¬ SameAttrs x y) ∧
    (Obj.ne (.editor x e) (.editor y f) = .ok true ↔ ¬ SameAttrs x y) ∧
    Obj.eq (.board x) (.editor y f) = .error .typeError ∧
    Obj.eq (.editor x e) (.board y) = .error .typeError := by
  have key : x = y ↔ SameAttrs x y := by
    unfold SameAttrs
    constructor
    · rintro rfl; simp
    · cases x; cases y; simp [Prod.ext_iff]; grind
  refine ⟨?_, ?_, ?_, ?_, rfl, rfl⟩ <;> simp [Obj.eq, Obj.ne, key]

example : runHistory [] [.newEditor none [.cube 2], .freeze 0, .edit 0 (.set (.cube 5)), .edit 1 (.set (.cube 9))]
    = [.editor { cube := 5 } [], .board { cube := 2 }] := by decide

end Bglib
