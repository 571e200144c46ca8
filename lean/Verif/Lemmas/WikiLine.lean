import Verif.Lemmas.Wiki
import Verif.Lemmas.Text
/-
What the handlers of the wiki formatter do to the invariant.
-/
namespace Bglib
open Spec Doc

variable {S T U : Prop}

/-- Between handlers. -/
def Good (S T U : Prop) (w : Wiki) : Prop := WikiInv S T U w ∧ Free w

/-- Success, with a good state. -/
def Does (S T U : Prop) (r : Py Wiki) : Prop := ∃ w, r = .ok w ∧ Good S T U w

theorem does_ok {w : Wiki} (h : Good S T U w) : Does S T U (.ok w) := ⟨w, rfl, h⟩

theorem does_bind {a : Py Wiki} {f : Wiki → Py Wiki} (ha : Does S T U a)
    (hf : ∀ w, Good S T U w → Does S T U (f w)) : Does S T U (a >>= f) := by
  obtain ⟨w, h1, h2⟩ := ha
  rw [h1]
  exact hf w h2

/-- Classes for `enter` other than lists and items. -/
def enterFine : Klass → Bool
  | .root | .text | .list _ | .itemize => false
  | _ => true

theorem enter_does {w : Wiki} (hw : Good S T U w) (k : Klass) (x : Option Extra) (hk : enterFine k = true)
    (hx : ∀ y, x = some y → SideOk S T k y) : Does S T U (w.enter k x) := by
  have hl : ∀ d, k ≠ .list d := by rintro d rfl; exact absurd hk (by simp [enterFine])
  have hi : k ≠ .itemize := by rintro rfl; exact absurd hk (by decide)
  obtain ⟨w', h1, h2, h3⟩ := enter_ok w hw.1 k x (by rintro rfl; exact absurd hk (by decide)) (hl none)
    (fun h => absurd h (hl _)) (Or.inl hw.2) (fun h => absurd h hi) hx
  exact ⟨w', h1, h2, free_klass w' k h3 (not_list hl)⟩

theorem enter_plain {w : Wiki} (hw : Good S T U w) (k : Klass) (hk : enterFine k = true) : Does S T U (w.enter k) :=
  enter_does hw k none hk (fun y hy => by cases hy)

theorem leave_does {w : Wiki} (hw : Good S T U w) (ks : List Klass) (h : leaveFine ks = true) :
    Does S T U (w.leave ks) := leave_free w hw.1 hw.2 ks h

theorem text_does {w : Wiki} (hw : Good S T U w) (t : Text) (ht : ¬ U → SafeText t) : Does S T U (w.text t) :=
  text_ok w hw.1 hw.2 t ht

theorem startIfNone_does {w : Wiki} (hw : Good S T U w) (k : Klass) (hk : enterFine k = true) :
    Does S T U (w.startIfNone k) := by
  unfold Wiki.startIfNone
  rcases ancestor_ok w hw.1 [k] with h | ⟨i, n, h, _⟩
  · rw [h]; exact enter_plain hw k hk
  · rw [h]; exact does_ok hw

theorem startOrEnd_does {w : Wiki} (hw : Good S T U w) (k : Klass) (hk : enterFine k = true)
    (hl : leaveFine [k] = true) : Does S T U (w.startOrEnd k) := by
  unfold Wiki.startOrEnd
  rcases ancestor_ok w hw.1 [k] with h | ⟨i, n, h, _⟩
  · rw [h]; exact enter_plain hw k hk
  · rw [h]; exact leave_does hw [k] hl

theorem times_does (f : Wiki → Py Wiki) (hf : ∀ w, Good S T U w → Does S T U (f w)) (n : Nat) {w : Wiki}
    (hw : Good S T U w) : Does S T U (times f n w) := by
  induction n generalizing w with
  | zero => exact does_ok hw
  | succ n ih => exact does_bind (hf w hw) fun w' hw' => ih hw'

theorem link_does {w : Wiki} (hw : Good S T U w) (l : List (Text × Text)) (t : Text) (ht : ¬ U → SafeText t) :
    Does S T U (w.link l t) :=
  does_bind (enter_does hw .anchor _ rfl (fun y hy => by cases hy; rfl)) fun _ h1 =>
    does_bind (text_does h1 t ht) fun _ h2 => leave_does h2 [.anchor] (by decide)

theorem extLink_does {w : Wiki} (hw : Good S T U w) (l : List (Text × Text)) (t : Text) (ht : ¬ U → SafeText t) :
    Does S T U (w.extLink l t) :=
  does_bind (enter_does hw .anchor _ rfl (fun y hy => by cases hy; rfl)) fun _ h1 =>
    does_bind (enter_plain h1 .span rfl) fun _ h2 =>
      does_bind (text_does h2 t ht) fun _ h3 =>
        does_bind (leave_does h3 [.span] (by decide)) fun _ h4 => leave_does h4 [.anchor] (by decide)

theorem boldItalic_does {w : Wiki} (hw : Good S T U w) : Does S T U w.boldItalic := by
  unfold Wiki.boldItalic
  rcases ancestor_ok w hw.1 [.bold, .italic] with h | ⟨i, n, h, _⟩
  · rw [h]
    exact does_bind (enter_plain hw .bold rfl) fun _ h1 => enter_plain h1 .italic rfl
  · rw [h]
    exact does_bind (leave_does hw [.bold] (by decide)) fun _ h1 => leave_does h1 [.italic] (by decide)

theorem tableCell_does {w : Wiki} (hw : Good S T U w) : Does S T U w.tableCell :=
  does_bind (startIfNone_does hw .table rfl) fun _ h1 =>
    does_bind (startIfNone_does h1 .tableRow rfl) fun _ h2 =>
      does_bind (leave_does h2 [.tableCell] (by decide)) fun _ h3 => enter_plain h3 .tableCell rfl

theorem cite_does {w : Wiki} (hw : Good S T U w) (m : Text) : Does S T U (w.cite m) := by
  obtain ⟨n, hn⟩ := nesting_ok w hw.1 .citation
  unfold Wiki.cite
  rw [hn]
  exact does_bind (times_does _ (fun _ h => leave_does h [.citation] (by decide)) _ hw) fun _ h1 =>
    does_bind (times_does _ (fun _ h => enter_plain h .citation rfl) _ h1) fun _ h2 =>
      startIfNone_does h2 .citationContent rfl

theorem isA_definitionBody (k : Klass) (h : k.isA .definitionBody = true) : k = .definitionBody := by
  cases k
  case list d => rw [isA_list] at h; exact absurd h (by decide)
  all_goals first
    | rfl
    | exact absurd h (by decide)

theorem quote_does {w : Wiki} (hw : Good S T U w) : Does S T U w.quote := by
  unfold Wiki.quote
  rcases ancestor_ok w hw.1 [.definitionList] with h | ⟨i, n, h, _⟩
  · rw [h]; exact startIfNone_does hw .blockQuote rfl
  · rw [h]
    show Does S T U (w.ancestor [.definitionBody] >>= _)
    rcases ancestor_ok w hw.1 [.definitionBody] with h | ⟨i, n, h, h1, h2⟩
    · rw [h]; exact enter_plain hw .definitionBody rfl
    · rw [h]
      refine does_ok ⟨goto_winv w hw.1 i (List.getElem?_eq_some_iff.1 h1).1, ?_⟩
      intro c m hc hm hl
      cases hc
      rw [h1] at hm
      cases hm
      simp only [List.any_cons, List.any_nil, Bool.or_false] at h2
      rw [isA_definitionBody _ h2] at hl
      obtain ⟨d, hd⟩ := hl
      cases hd

/-! ### Lists -/

theorem isA_itemize (k : Klass) : k.isA .itemize = true ↔ k = .itemize := by
  constructor
  · intro h
    cases k
    case list d => rw [isA_list] at h; exact absurd h (by decide)
    all_goals first
      | rfl
      | exact absurd h (by decide)
  · rintro rfl; decide

theorem isA_isList (k : Klass) : k.isA (.list none) = true ↔ IsList k := by
  constructor
  · intro h
    cases k
    case list d => exact ⟨d, rfl⟩
    all_goals exact absurd h (by decide)
  · rintro ⟨d, rfl⟩; rw [isA_list]; decide

theorem count_fuel (w : Wiki) (k : Klass) (f g : Nat) (s : Option Nat) (a b : Nat)
    (h1 : w.countNesting k f s = .ok a) (h2 : w.countNesting k g s = .ok b) : a = b := by
  induction f generalizing g s a b with
  | zero =>
    cases s with
    | none =>
      cases g <;> simp [Wiki.countNesting] at h1 h2 <;> omega
    | some c => simp [Wiki.countNesting] at h1
  | succ f ih =>
    cases s with
    | none => cases g <;> simp [Wiki.countNesting] at h1 h2 <;> omega
    | some c =>
      cases g with
      | zero => simp [Wiki.countNesting] at h2
      | succ g =>
        unfold Wiki.countNesting at h1 h2
        split at h1
        · simp at h1
        · next n hn =>
          rw [hn] at h2
          dsimp only at h2
          split at h1
          · simp at h1
          · next m hm =>
            split at h2
            · simp at h2
            · next m' hm' =>
              cases h1
              cases h2
              rw [ih g n.parent m m' hm hm']

/-- The first list on the way up, if the count is not zero. -/
theorem count_climb (w : Wiki) (fuel g : Nat) (s : Option Nat) (a : Nat)
    (h : w.countNesting (.list none) fuel s = .ok (a + 1)) (hg : fuel ≤ g) :
    ∃ i n f', w.doc.climb (fun n => [Klass.list none].any fun k => n.klass.isA k) g s = .ok (some i) ∧
      w.doc.nodes[i]? = some n ∧ w.countNesting (.list none) f' n.parent = .ok a := by
  induction fuel generalizing g s with
  | zero => cases s <;> simp [Wiki.countNesting] at h
  | succ fuel ih =>
    cases s with
    | none => simp [Wiki.countNesting] at h
    | some c =>
      cases g with
      | zero => omega
      | succ g =>
        unfold Wiki.countNesting at h
        split at h
        · simp at h
        · next n hn =>
          split at h
          · simp at h
          · next m hm =>
            unfold Editor.climb
            rw [hn]
            dsimp only
            simp only [Except.ok.injEq] at h
            by_cases hl : n.klass.isA (.list none) = true
            · simp only [hl, if_true, List.any_cons, Bool.true_or] at h ⊢
              refine ⟨c, n, fuel, rfl, hn, ?_⟩
              rw [hm]
              congr 1
              omega
            · simp only [hl, List.any_cons, List.any_nil, Bool.or_false] at h ⊢
              simp only [Bool.false_eq_true, if_false, Nat.add_zero] at h ⊢
              subst h
              have := ih g n.parent hm (by omega)
              simpa only [List.any_cons, List.any_nil, Bool.or_false] using this

theorem nesting_leave (w : Wiki) (hw : WikiInv S T U w) (a : Nat) (h : w.nesting (.list none) = .ok (a + 1)) :
    ∃ w', w.leave [.list none] = .ok w' ∧ WikiInv S T U w' ∧ w'.nesting (.list none) = .ok a := by
  obtain ⟨i, n, f', h1, h2, h3⟩ := count_climb w _ _ _ a h (Nat.le_refl _)
  obtain ⟨w', k1, k2, _⟩ := leave_ok w hw [.list none] (by decide)
  refine ⟨w', k1, k2, ?_⟩
  unfold Wiki.leave at k1
  rw [h1] at k1
  cases k1
  obtain ⟨b, hb⟩ := nesting_ok _ k2 (.list none)
  rw [hb]
  congr 1
  have hcur : ({ w.doc with current := w.doc.parentOf i } : Editor).current = n.parent := by
    simp [Editor.parentOf, h2]
  unfold Wiki.nesting at hb
  rw [hcur] at hb
  have hsame : ∀ (f : Nat) (s : Option Nat),
      Wiki.countNesting { w with doc := { w.doc with current := w.doc.parentOf i } } (.list none) f s =
        w.countNesting (.list none) f s := by
    intro f
    induction f with
    | zero => intro s; cases s <;> rfl
    | succ f ih =>
      intro s
      cases s with
      | none => rfl
      | some c => unfold Wiki.countNesting; simp only [ih]
  rw [hsame] at hb
  exact count_fuel w _ _ _ _ _ _ hb h3

theorem nesting_times (n : Nat) (w : Wiki) (hw : WikiInv S T U w) (a : Nat) (h : w.nesting (.list none) = .ok (a + n)) :
    ∃ w', times (fun w => w.leave [.list none]) n w = .ok w' ∧ WikiInv S T U w' ∧ w'.nesting (.list none) = .ok a := by
  induction n generalizing w with
  | zero => exact ⟨w, rfl, hw, h⟩
  | succ n ih =>
    obtain ⟨w1, h1, h2, h3⟩ := nesting_leave w hw (a + n) h
    obtain ⟨w2, k1, k2, k3⟩ := ih w1 h2 h3
    refine ⟨w2, ?_, k2, k3⟩
    simp only [times, h1]
    exact k1

/-- With a list but no item on the way up, the way starts at a list. -/
theorem at_list (w : Wiki) (hw : WikiInv S T U w) (fuel f' : Nat) (s : Nat) (a : Nat)
    (h : w.countNesting (.list none) fuel (some s) = .ok (a + 1))
    (hc : w.doc.climb (fun n => [Klass.itemize].any fun k => n.klass.isA k) f' (some s) = .ok none) :
    ∃ n, w.doc.nodes[s]? = some n ∧ IsList n.klass := by
  induction fuel generalizing f' s with
  | zero => simp [Wiki.countNesting] at h
  | succ fuel ih =>
    cases f' with
    | zero => simp [Editor.climb] at hc
    | succ f' =>
      unfold Wiki.countNesting at h
      split at h
      · simp at h
      · next n hn =>
        refine ⟨n, hn, ?_⟩
        split at h
        · simp at h
        · next m hm =>
          simp only [Except.ok.injEq] at h
          by_cases hl : n.klass.isA (.list none) = true
          · exact (isA_isList _).1 hl
          · rw [if_neg hl] at h
            have h : m = a + 1 := h
            subst h
            unfold Editor.climb at hc
            rw [hn] at hc
            dsimp only at hc
            split at hc
            · simp at hc
            · next hni =>
              cases hp : n.parent with
              | none => rw [hp] at hm; cases fuel <;> simp [Wiki.countNesting] at hm
              | some p =>
                rw [hp] at hm hc
                obtain ⟨m', k1, k2⟩ := ih f' p hm hc
                rcases hw.below s p n m' hn hp k1 k2 with hk | hk
                · exact absurd (by rw [hk]; decide) hni
                · exact hk

theorem leave_item (w : Wiki) (hw : WikiInv S T U w) (a : Nat) (h : w.nesting (.list none) = .ok (a + 1)) :
    ∃ w' d, w.leave [.itemize] = .ok w' ∧ WikiInv S T U w' ∧ w'.doc.currentKlass = some (.list d) := by
  obtain ⟨w', h1, h2, h3⟩ := leave_ok w hw [.itemize] (by decide)
  rcases climb_spec w.doc hw.doc (fun n => [Klass.itemize].any fun k => n.klass.isA k) (w.doc.nodes.length + 1)
    w.doc.current (fun c hc => by have := hw.doc.current c hc; omega) with hc | ⟨i, n, hc, k2, k3, _⟩
  · have : w' = w := by
      unfold Wiki.leave at h1
      rw [hc] at h1
      cases h1
      rfl
    subst this
    obtain ⟨c, hcur⟩ := hw.current
    unfold Wiki.nesting at h
    rw [hcur] at h hc
    obtain ⟨n, k1, d, k2⟩ := at_list w' hw _ _ c a h hc
    exact ⟨w', d, h1, h2, by simp [Editor.currentKlass, hcur, k1, k2]⟩
  · simp only [List.any_cons, List.any_nil, Bool.or_false] at k3
    obtain ⟨p, m, l1, l2, d, l3⟩ := hw.items i n k2 ((isA_itemize _).1 k3)
    refine ⟨w', d, h1, h2, ?_⟩
    unfold Wiki.leave at h1
    rw [hc] at h1
    cases h1
    simp [Editor.currentKlass, Editor.parentOf, k2, l1, l2, l3]

theorem enterItem_does (w : Wiki) (hw : WikiInv S T U w) (g : List (Text × Text)) (d : Option Design)
    (h : w.doc.currentKlass = some (.list d)) : Does S T U (w.enterItem g) := by
  unfold Wiki.enterItem
  rw [h]
  dsimp only
  obtain ⟨w', h1, h2, h3⟩ := enter_ok w hw .itemize
    (some (.item (d ≠ some .sign || (groupOf g t!"sign").isSome))) (by decide) (by decide) (fun h => by cases h)
    (Or.inr (Or.inl rfl)) (fun _ => ⟨d, h⟩) (by
      intro y hy
      cases hy
      refine ⟨rfl, fun hf => ?_⟩
      simp only [Bool.or_eq_false_iff, decide_eq_false_iff_not, ne_eq, Decidable.not_not] at hf
      have hd := hf.1
      subst hd
      obtain ⟨c, hc⟩ := hw.current
      have hcl := hw.doc.current c hc
      simp only [Editor.currentKlass, hc, Option.bind_some, List.getElem?_eq_getElem hcl, Option.map_some,
        Option.some.injEq] at h
      exact hw.sign c _ (List.getElem?_eq_getElem hcl) h)
  exact ⟨w', h1, h2, free_klass w' _ h3 (not_list (by simp))⟩

theorem enterLists (n : Nat) (w : Wiki) (hw : WikiInv S T U w) :
    ∃ w', times (fun w => w.enter (.list (some .star))) n w = .ok w' ∧ WikiInv S T U w' := by
  induction n generalizing w with
  | zero => exact ⟨w, rfl, hw⟩
  | succ n ih =>
    obtain ⟨w1, h1, h2, _⟩ := enter_ok w hw (.list (some .star)) none (by decide) (by decide) (fun h => by cases h)
      (Or.inr (Or.inr ⟨_, rfl⟩)) (fun h => by cases h) (fun y hy => by cases hy)
    obtain ⟨w2, k1, k2⟩ := ih w1 h2
    refine ⟨w2, ?_, k2⟩
    simp only [times, h1]
    exact k1

theorem designOf_sign (g : List (Text × Text)) (h : designOf g = .sign) : (groupOf g t!"sign").isSome = true := by
  unfold designOf at h
  split at h
  · assumption
  · repeat' (split at h)
    all_goals cases h

theorem itemize_does {w : Wiki} (hw : Good S T U w) (m : Text) (g : List (Text × Text)) (hm : m.head? = some ' ')
    (hs : (groupOf g t!"sign").isSome = true → S) : Does S T U (w.itemize m g) := by
  have hpos : 1 ≤ (m.takeWhile (· = ' ')).length := by
    cases m with
    | nil => simp at hm
    | cons c m => simp at hm; subst hm; simp
  obtain ⟨nest, hn⟩ := nesting_ok w hw.1 (.list none)
  unfold Wiki.itemize
  rw [hn]
  show Does S T U (times (fun w => w.leave [.list none]) (nest - (m.takeWhile (· = ' ')).length) w >>= _)
  generalize (m.takeWhile (· = ' ')).length = indent at hpos
  by_cases hle : indent ≤ nest
  · obtain ⟨w1, h1, h2, h3⟩ := nesting_times (nest - indent) w hw.1 indent (by rw [hn]; congr 1; omega)
    obtain ⟨b, rfl⟩ : ∃ b, indent = b + 1 := ⟨indent - 1, by omega⟩
    obtain ⟨w2, d, k1, k2, k3⟩ := leave_item w1 h2 b h3
    rw [h1]
    show Does S T U (w1.toList (b + 1) nest g >>= _)
    unfold Wiki.toList
    rw [if_pos hle, k1]
    exact enterItem_does w2 k2 g d k3
  · rw [show nest - indent = 0 by omega]
    show Does S T U (w.toList indent nest g >>= _)
    unfold Wiki.toList
    rw [if_neg hle]
    obtain ⟨w1, h1, h2⟩ := enterLists (indent - nest - 1) w hw.1
    rw [h1]
    show Does S T U (w1.enter (.list (some (designOf g))) >>= _)
    obtain ⟨w2, k1, k2, k3⟩ := enter_ok w1 h2 (.list (some (designOf g))) none (by simp) (by simp)
      (fun h => hs (designOf_sign g (by simpa using h))) (Or.inr (Or.inr ⟨_, rfl⟩)) (fun h => by cases h)
      (fun y hy => by cases hy)
    rw [k1]
    exact enterItem_does w2 k2 g _ k3

/-! ### Macros -/

/-- Operations macros use. -/
def opFine (U : Prop) : Op → Prop
  | .enter k => enterFine k = true
  | .leave k => leaveFine [k] = true
  | .text t => ¬ U → SafeText t
  | _ => False

theorem run_does (os : List Op) {w : Wiki} (hw : Good S T U w) (h : ∀ o ∈ os, opFine U o) : Does S T U (w.run os) := by
  induction os generalizing w with
  | nil => exact does_ok hw
  | cons o os ih =>
    have key : ∀ (w' : Wiki), w.doc.apply o = .ok w'.doc → w'.side = w.side → w.run (o :: os) = w'.run os := by
      intro w' h1 h2
      unfold Wiki.run
      rw [Editor.run, h1, h2]
    have ho := h o (by simp)
    have hos := fun o ho => h o (List.mem_cons_of_mem _ ho)
    cases o with
    | enter k =>
      obtain ⟨w', h1, h2⟩ := enter_plain hw k ho
      rw [key w']
      · exact ih h2 hos
      · unfold Wiki.enter at h1
        simp only [Editor.apply, Editor.enter]
        split at h1
        · simp at h1
        · next ha => rw [ha]; cases h1; rfl
      · unfold Wiki.enter at h1
        split at h1
        · simp at h1
        · cases h1; rfl
    | leave k =>
      obtain ⟨w', h1, h2⟩ := leave_does hw [k] ho
      have heq : w.doc.leave k = match w.doc.climb (fun n => [k].any fun k => n.klass.isA k)
          (w.doc.nodes.length + 1) w.doc.current with
        | .error x => .error x
        | .ok none => .ok w.doc
        | .ok (some i) => .ok { w.doc with current := w.doc.parentOf i } := by
        unfold Editor.leave
        simp only [List.any_cons, List.any_nil, Bool.or_false]
        generalize w.doc.climb _ _ _ = r
        rcases r with _ | _ | _ <;> rfl
      rw [key w']
      · exact ih h2 hos
      · unfold Wiki.leave at h1
        simp only [Editor.apply]
        rw [heq]
        split at h1
        · simp at h1
        · next ha => rw [ha]; cases h1; rfl
        · next ha => rw [ha]; cases h1; rfl
      · unfold Wiki.leave at h1
        split at h1
        · simp at h1
        · cases h1; rfl
        · cases h1; rfl
    | text t =>
      obtain ⟨w', h1, h2⟩ := text_does hw t ho
      rw [key w']
      · exact ih h2 hos
      · unfold Wiki.text at h1
        simp only [Editor.apply]
        split at h1
        · simp at h1
        · next ha => rw [ha]; cases h1; rfl
      · unfold Wiki.text at h1
        split at h1
        · simp at h1
        · cases h1; rfl
    | append | remove | done => exact ho.elim

theorem cell_fine (k : Klass) (t : Text) (h1 : enterFine k = true) (h2 : leaveFine [k] = true) (h3 : ¬ U → SafeText t) :
    ∀ o ∈ cell k t, opFine U o := by
  intro o ho
  simp only [cell, List.mem_cons, List.not_mem_nil, or_false] at ho
  rcases ho with rfl | rfl | rfl
  · exact h1
  · exact h3
  · exact h2

theorem fine_append {a b : List Op} (ha : ∀ o ∈ a, opFine U o) (hb : ∀ o ∈ b, opFine U o) :
    ∀ o ∈ a ++ b, opFine U o := fun o ho => (List.mem_append.1 ho).elim (ha o) (hb o)

theorem cells_fine (k : Klass) (l : List Text) (h1 : enterFine k = true) (h2 : leaveFine [k] = true)
    (h3 : ¬ U → ∀ t ∈ l, SafeText t) : ∀ o ∈ l.flatMap (cell k), opFine U o := by
  intro o ho
  obtain ⟨t, ht, ho⟩ := List.mem_flatMap.1 ho
  exact cell_fine k t h1 h2 (fun hU => h3 hU t ht) o ho

theorem one_fine {o : Op} (h : opFine U o) : ∀ o' ∈ [o], opFine U o' := by
  intro o' ho
  cases List.mem_singleton.1 ho
  exact h

theorem two_fine {o p : Op} (h : opFine U o) (h' : opFine U p) : ∀ o' ∈ [o, p], opFine U o' := by
  intro o' ho
  simp only [List.mem_cons, List.not_mem_nil, or_false] at ho
  rcases ho with rfl | rfl
  · exact h
  · exact h'

theorem safe_all (l : List Text) (h : l.all plainB = true) : ¬ U → ∀ t ∈ l, SafeText t :=
  fun _ t ht => safe_plainB t (List.all_eq_true.1 h t ht)

theorem safe_pyStr (n : Int) : SafeText (pyStr n) := by
  have hdec : ∀ n : Nat, SafeText (decimal n) := by
    intro n
    refine safe_plain _ fun c hc => ?_
    obtain ⟨d, hd, rfl⟩ := decimal_digits hc
    have : ∀ d < 10, digitChar d ≠ '<' ∧ digitChar d ≠ '>' ∧ digitChar d ≠ '&' := by decide
    exact this d hd
  unfold pyStr
  split
  · exact .plain _ _ (by decide) (by decide) (by decide) (hdec _)
  · exact hdec _

theorem rowOps_fine (n : Int) (l : List Text) (h : ¬ U → ∀ t ∈ l, SafeText t) : ∀ o ∈ rowOps n l, opFine U o := by
  unfold rowOps
  exact fine_append (fine_append (fine_append (one_fine (by decide : enterFine .tableRow = true))
    (cell_fine _ _ rfl rfl fun _ => safe_pyStr n)) (cells_fine _ _ rfl rfl h)) (one_fine (by decide : leaveFine [.tableRow] = true))

theorem chanceRow_fine (l : List Text) (h : ¬ U → ∀ t ∈ l, SafeText t) : ∀ o ∈ chanceRow l, opFine U o := by
  unfold chanceRow
  exact fine_append (fine_append (one_fine (by decide : enterFine .tableRow = true))
    (cells_fine _ _ rfl rfl h)) (one_fine (by decide : leaveFine [.tableRow] = true))

/-- Deciding `opFine` for plain texts. -/
def opFineB : Op → Bool
  | .enter k => enterFine k
  | .leave k => leaveFine [k]
  | .text t => plainB t
  | _ => false

theorem opFine_of (os : List Op) (h : os.all opFineB = true) : ∀ o ∈ os, opFine U o := by
  intro o ho
  have := List.all_eq_true.1 h o ho
  cases o with
  | enter k => exact this
  | leave k => exact this
  | text t => exact fun _ => safe_plainB t this
  | append | remove | done => exact absurd this (by simp [opFineB])

theorem analysis_fine (a : Analysis) (h : ¬ U → ∀ t ∈ analysisTexts a, SafeText t) :
    ∀ o ∈ analysisOps a, opFine U o := by
  cases a with
  | cube c rows =>
    have hc : ¬ U → ∀ t ∈ c, SafeText t := fun hU t ht => h hU t (List.mem_append_left _ ht)
    have hr : ∀ r ∈ rows, ¬ U → ∀ t ∈ r.2, SafeText t := fun r hr hU t ht =>
      h hU t (List.mem_append_right _ (List.mem_flatMap.2 ⟨r, hr, ht⟩))
    refine fine_append (fine_append (fine_append (fine_append ?_ (opFine_of _ (by decide))) (opFine_of _ (by decide))) ?_)
      (opFine_of _ (by decide))
    · unfold cubelessOps
      refine fine_append (fine_append (fine_append (fine_append (opFine_of _ (by decide)) ?_)
        (opFine_of _ (by decide))) ?_) (opFine_of _ (by decide))
      · exact cells_fine _ _ rfl rfl fun hU t ht => hc hU t (List.mem_of_mem_take ht)
      · exact cells_fine _ _ rfl rfl fun hU t ht => hc hU t (List.mem_of_mem_drop ht)
    · intro o ho
      obtain ⟨r, hr', ho⟩ := List.mem_flatMap.1 ho
      exact rowOps_fine _ _ (hr r hr') o ho
  | moves rows =>
    have hr : ∀ r ∈ rows, ¬ U → ∀ t ∈ r.2, SafeText t := fun r hr hU t ht =>
      h hU t (List.mem_flatMap.2 ⟨r, hr, ht⟩)
    refine fine_append (fine_append (opFine_of _ (by decide)) ?_) (opFine_of _ (by decide))
    intro o ho
    obtain ⟨r, hr', ho⟩ := List.mem_flatMap.1 ho
    rcases List.mem_append.1 ho with ho | ho
    · exact rowOps_fine _ _ (fun hU t ht => hr r hr' hU t (List.mem_of_mem_take ht)) o ho
    · exact chanceRow_fine _ (fun hU t ht => hr r hr' hU t (List.mem_of_mem_drop ht)) o ho

theorem toc_does {w : Wiki} (hw : Good S T U w) (hT : T) :
    ∃ d i, w.doc.append .macro = .ok (d, i) ∧ Good S T U ⟨d, (i, .toc) :: w.side⟩ := by
  obtain ⟨cur, hcur⟩ := hw.1.current
  obtain ⟨c, n, h1, h2, h3, h4⟩ := append_spec w.doc hw.1.doc .macro (by decide) cur hcur
  have hcl := hw.1.doc.current cur hcur
  refine ⟨_, _, h4, ?_, ?_⟩
  · refine push_winv w hw.1 c cur .macro [] (by omega) hcl (by decide) (by decide) (fun h => by cases h)
      (fun _ => rfl) (fun _ => .nil) (Or.inr fun n' hn' => by rw [h2] at hn'; cases hn'; exact h3)
      (fun m hm hl => absurd hl (hw.2 cur m hcur hm)) (fun h => by cases h) c (by omega) _ ?_
    intro i y hy
    rcases List.mem_cons.1 hy with hy | hy
    · cases hy; exact Or.inl ⟨rfl, rfl, hT⟩
    · exact Or.inr hy
  · intro c' m hc hm hl
    cases hc
    rcases pushed_get hm with ⟨m', k1, k2, _⟩ | ⟨_, rfl⟩
    · rw [k2] at hl
      have hcl' : w.doc.climb (fun n => n.klass.accepts .macro) (w.doc.nodes.length + 1) (some cur) = .ok (some c) := by
        unfold Editor.append at h4
        rw [if_neg (by decide), hcur] at h4
        split at h4
        · simp at h4
        · simp at h4
        · next hc => rw [hc]; simp at h4; rw [h4.2]
      rcases climb_parent w.doc _ _ _ _ hcl' with rfl | ⟨j, x, hj, hp, hx⟩
      · exact hw.2 c m' hcur k1 hl
      · rcases hw.1.below j c x m' hj hp k1 hl with hk | ⟨d, hk⟩
        · rcases accepts_macro _ hx with h | h <;> rw [hk] at h <;> cases h
        · rcases accepts_macro _ hx with h | h <;> rw [hk] at h <;> cases h
    · obtain ⟨d, hd⟩ := hl; cases hd

end Bglib
