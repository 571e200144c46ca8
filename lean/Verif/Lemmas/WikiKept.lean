import Verif.Model.Wiki
/-
What every step of the wiki formatter keeps holds after parsing.
-/
namespace Bglib.Doc
open Bglib

/-- The classes of the nodes about which things are known. -/
def Extra.fits : Extra → Klass → Prop
  | .attrs _, k => k = .anchor
  | .item _, k => k = .itemize
  | .block _ _, k => k = .element
  | .toc, k => k = .macro

/-- If there is a result, `I` holds for it. -/
def Lasts (I : Wiki → Prop) (r : Py Wiki) : Prop := ∀ w, r = .ok w → I w

/-- `I` is kept by the steps the formatter is made of. -/
structure Lasting (I : Wiki → Prop) : Prop where
  enter : ∀ w k x, I w → (∀ y, x = some y → y.fits k) → Lasts I (w.enter k x)
  append : ∀ w k d i, I w → w.doc.append k = .ok (d, i) → I { w with doc := d }
  toc : ∀ w d i, I w → w.doc.append .macro = .ok (d, i) → I ⟨d, (i, .toc) :: w.side⟩
  leave : ∀ w ks, I w → Lasts I (w.leave ks)
  text : ∀ w t, I w → Lasts I (w.text t)
  goto : ∀ w ks i, I w → w.ancestor ks = .ok (some i) → I { w with doc := { w.doc with current := some i } }
  done : ∀ w, I w → I { w with doc := w.doc.done }
  block : ∀ w c b r b' r', I w → w.extra c = some (.block b r) → I { w with side := (c, .block b' r') :: w.side }

variable {I : Wiki → Prop}

theorem lasts_ok {w : Wiki} (h : I w) : Lasts I (.ok w) := by
  intro w' h'
  cases h'
  exact h

theorem lasts_error {e : PyErr} : Lasts I (.error e) := by
  intro w' h'
  cases h'

theorem lasts_bind {a : Py Wiki} {f : Wiki → Py Wiki} (ha : Lasts I a) (hf : ∀ w, I w → Lasts I (f w)) : Lasts I (a >>= f) := by
  cases a with
  | error e => exact lasts_error
  | ok w => exact hf w (ha w rfl)

namespace Lasting

variable (K : Lasting I) {w : Wiki} (h : I w)
include K h

theorem enter' (k : Klass) : Lasts I (w.enter k) := K.enter w k none h (by simp)

theorem run (os : List Op) (hos : ∀ i, .remove i ∉ os) : Lasts I (w.run os) := by
  induction os generalizing w with
  | nil => intro w' e; cases e; exact h
  | cons o os ih =>
    intro w' e
    unfold Wiki.run Editor.run at e
    have key : ∀ d, w.doc.apply o = .ok d → I { w with doc := d } := by
      intro d hd
      cases o with
      | enter k =>
        refine K.enter' h k _ ?_
        simp only [Editor.apply, Editor.enter] at hd
        unfold Wiki.enter
        split at hd
        · cases hd
        · next e' i ha => cases hd; rw [ha]
      | leave k =>
        refine K.leave w [k] h _ ?_
        simp only [Editor.apply, Editor.leave] at hd
        unfold Wiki.leave
        simp only [List.any_cons, List.any_nil, Bool.or_false]
        split at hd
        · cases hd
        · next ha => cases hd; rw [ha]
        · next i ha => cases hd; rw [ha]
      | append k =>
        simp only [Editor.apply] at hd
        split at hd
        · next e' i ha => cases hd; exact K.append w k _ i h ha
        · cases hd
      | text t =>
        refine K.text w t h _ ?_
        simp only [Editor.apply] at hd
        unfold Wiki.text
        rw [hd]
      | remove i => exact absurd (by simp) (hos i)
      | done => cases hd; exact K.done w h
    cases hd : w.doc.apply o with
    | error x => rw [hd] at e; cases e
    | ok d =>
      rw [hd] at e
      refine ih (key d hd) (fun i hi => hos i (by simp [hi])) w' ?_
      unfold Wiki.run
      exact e

theorem startIfNone (k : Klass) : Lasts I (w.startIfNone k) := by
  unfold Wiki.startIfNone
  cases w.ancestor [k] with
  | error e => exact lasts_error
  | ok o =>
    cases o with
    | none => exact K.enter' h k
    | some i => exact lasts_ok h

theorem startOrEnd (k : Klass) : Lasts I (w.startOrEnd k) := by
  unfold Wiki.startOrEnd
  cases w.ancestor [k] with
  | error e => exact lasts_error
  | ok o =>
    cases o with
    | none => exact K.enter' h k
    | some i => exact K.leave _ _ h

omit K in
theorem times {f : Wiki → Py Wiki} (hf : ∀ w, I w → Lasts I (f w)) (n : Nat) : Lasts I (times f n w) := by
  induction n generalizing w with
  | zero => exact lasts_ok h
  | succ n ih => exact lasts_bind (hf w h) fun w hw => ih hw

theorem dispatch (env : Env) (name : Text) (args : Option Text) : Lasts I (w.dispatch env name args) := by
  have hcell : ∀ k t i, Op.remove i ∉ cell k t := by intro k t i; simp [cell]
  have hcells : ∀ k (l : List Text) i, Op.remove i ∉ l.flatMap (cell k) := by
    intro k l i hi
    obtain ⟨t, _, ht⟩ := List.mem_flatMap.1 hi
    exact hcell _ _ _ ht
  have hrow : ∀ n l i, Op.remove i ∉ rowOps n l := by
    intro n l i hi
    simp only [rowOps, List.mem_append, List.mem_singleton, reduceCtorEq, false_or, or_false] at hi
    rcases hi with hi | hi
    · exact hcell _ _ _ hi
    · exact hcells _ _ _ hi
  have hchance : ∀ l i, Op.remove i ∉ chanceRow l := by
    intro l i hi
    simp only [chanceRow, List.mem_append, List.mem_singleton, reduceCtorEq, false_or, or_false] at hi
    exact hcells _ _ _ hi
  unfold Wiki.dispatch
  repeat' split
  all_goals first
    | exact K.run h _ (by simp [cell, badArgs, badName])
    | exact lasts_error
    | skip
  · next d i ha => exact lasts_ok (K.toc w d i h ha)
  · next f _ _ =>
    refine K.run h _ ?_
    intro i hi
    cases ha : f _ _ with
    | cube c rows =>
      rw [ha] at hi
      simp only [analysisOps, cubelessOps, cubeHeader, List.mem_append, List.mem_cons, List.not_mem_nil, reduceCtorEq, false_or, or_false] at hi
      simp_all [cell, rowOps]
    | moves rows =>
      rw [ha] at hi
      simp only [analysisOps, moveHeader, List.mem_append, List.mem_cons, List.not_mem_nil, reduceCtorEq, false_or, or_false] at hi
      simp_all [cell, rowOps, chanceRow]

theorem link (l : List (Text × Text)) (t : Text) : Lasts I (w.link l t) :=
  lasts_bind (K.enter _ _ _ h (by rintro l' h; cases h; rfl)) fun _ h => lasts_bind (K.text _ _ h) fun _ h => K.leave _ _ h

theorem extLink (l : List (Text × Text)) (t : Text) : Lasts I (w.extLink l t) :=
  lasts_bind (K.enter _ _ _ h (by rintro l' h; cases h; rfl)) fun _ h => lasts_bind (K.enter' h _) fun _ h =>
    lasts_bind (K.text _ _ h) fun _ h => lasts_bind (K.leave _ _ h) fun _ h => K.leave _ _ h

theorem itemize (m : Text) (g : List (Text × Text)) : Lasts I (w.itemize m g) := by
  unfold Wiki.itemize
  dsimp only
  cases w.nesting (.list none) with
  | error e => exact lasts_error
  | ok n =>
    refine lasts_bind (Lasting.times h (fun w h => K.leave _ _ h) _) fun w h => lasts_bind ?_ fun w h => ?_
    · unfold Wiki.toList
      split
      · exact K.leave _ _ h
      · exact lasts_bind (Lasting.times h (fun w h => K.enter' h _) _) fun w h => K.enter' h _
    · unfold Wiki.enterItem
      split
      · exact K.enter _ _ _ h (by rintro _ ⟨⟩; rfl)
      · exact lasts_error

theorem cite (m : Text) : Lasts I (w.cite m) := by
  unfold Wiki.cite
  dsimp only
  cases w.nesting .citation with
  | error e => exact lasts_error
  | ok n =>
    exact lasts_bind (Lasting.times h (fun w h => K.leave _ _ h) _) fun w h =>
      lasts_bind (Lasting.times h (fun w h => K.enter' h _) _) fun w h => K.startIfNone h _

theorem quote : Lasts I w.quote := by
  unfold Wiki.quote
  cases w.ancestor [.definitionList] with
  | error e => exact lasts_error
  | ok o =>
    cases o with
    | none => exact K.startIfNone h _
    | some i =>
      show Lasts I (w.ancestor [.definitionBody] >>= _)
      cases ha : w.ancestor [.definitionBody] with
      | error e => exact lasts_error
      | ok o =>
        cases o with
        | none => exact K.enter' h _
        | some j => exact lasts_ok (K.goto w _ j h ha)

theorem boldItalic : Lasts I w.boldItalic := by
  unfold Wiki.boldItalic
  cases w.ancestor [.bold, .italic] with
  | error e => exact lasts_error
  | ok o =>
    cases o with
    | none => exact lasts_bind (K.enter' h _) fun w h => K.enter' h _
    | some i => exact lasts_bind (K.leave _ _ h) fun w h => K.leave _ _ h

theorem tableCell : Lasts I w.tableCell :=
  lasts_bind (K.startIfNone h _) fun _ h => lasts_bind (K.startIfNone h _) fun _ h => lasts_bind (K.leave _ _ h) fun _ h =>
    K.enter' h _

theorem handle (env : Env) (p : Pat) (m : Text) (g : List (Text × Text)) : Lasts I (w.handle env p m g) := by
  unfold Wiki.handle
  cases p <;> dsimp only
  all_goals first
    | exact K.text _ _ h
    | exact K.startOrEnd h _
    | exact K.enter' h _
    | exact K.leave _ _ h
    | exact K.boldItalic h
    | exact K.tableCell h
    | exact K.enter _ _ _ h (by rintro _ ⟨⟩; rfl)
    | exact lasts_ok h
    | exact K.cite h _
    | exact K.itemize h _ _
    | exact K.quote h
    | exact K.dispatch h _ _ _
    | exact K.link h _ _
    | exact K.extLink h _ _

theorem items (env : Env) (xs : List (Pat × Text × List (Text × Text))) : Lasts I (w.items env xs) := by
  induction xs generalizing w with
  | nil => exact lasts_ok h
  | cons x xs ih =>
    refine lasts_bind ?_ fun w hw => ih hw
    unfold Wiki.item
    split
    · exact K.text _ _ h
    · exact K.handle h _ _ _ _

omit K in
theorem onlyIf (b : Bool) (f : Wiki → Py Wiki) (hf : ∀ w, I w → Lasts I (f w)) : Lasts I (w.onlyIf b f) := by
  unfold Wiki.onlyIf
  split
  · exact hf w h
  · exact lasts_ok h

theorem line (env : Env) (line : Text) : Lasts I (w.line env line) := by
  unfold Wiki.line
  split
  · next c buf rst hb =>
    have hold : w.extra c = some (.block buf rst) := by
      unfold Wiki.block at hb
      split at hb
      · cases hb
      · next c' _ =>
        split at hb
        · next hx => cases hb; exact hx
        · cases hb
    unfold Wiki.parseBlock
    split
    · exact K.leave _ _ h
    · split
      · exact lasts_ok (K.block _ _ _ _ _ _ h hold)
      · exact lasts_ok (K.block _ _ _ _ _ _ h hold)
  · unfold Wiki.parseLine
    split
    · exact lasts_bind (K.leave _ _ h) fun w hw => lasts_ok (K.done w hw)
    · exact lasts_bind (K.startIfNone h _) fun w hw =>
        lasts_bind (Lasting.onlyIf hw _ _ fun w hw => K.leave _ _ hw) fun w hw =>
        lasts_bind (Lasting.onlyIf hw _ _ fun w hw => K.leave _ _ hw) fun w hw =>
        lasts_bind (Lasting.onlyIf hw _ _ fun w hw => lasts_bind (K.startIfNone hw _) fun w hw => K.enter' hw _) fun w hw =>
        lasts_bind (K.items hw _ _) fun w hw =>
        Lasting.onlyIf hw _ _ fun w hw => lasts_bind (K.leave _ _ hw) fun w hw => K.enter' hw _

theorem lines (env : Env) (ls : List Text) : Lasts I (w.lines env ls) := by
  induction ls generalizing w with
  | nil => exact lasts_ok h
  | cons l ls ih => exact lasts_bind (K.line h env l) fun w hw => ih hw

theorem parse (env : Env) (text : Text) : Lasts I (w.parse env text) := K.lines h env _

end Lasting
end Bglib.Doc
