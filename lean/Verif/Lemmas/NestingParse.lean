import Verif.Lemmas.NestingLine
/-
Parsing a text, and the ways from the current node to the root.
-/
namespace Bglib.Nesting
open Bglib Bglib.Spec Bglib.Doc

/-! ### Citations -/

theorem isA_citation (k : Klass) (h : k.isA .citation = true) : k = .citation := by
  cases k <;> first
    | rfl
    | exact absurd h Bool.false_ne_true

theorem isA_content (k : Klass) (h : k.isA .citationContent = true) : k = .citationContent := by
  cases k <;> first
    | rfl
    | exact absurd h Bool.false_ne_true

theorem isA_deflist (k : Klass) (h : k.isA .definitionList = true) : k = .definitionList := by
  cases k <;> first
    | rfl
    | exact absurd h Bool.false_ne_true

theorem isA_divs (k : Klass) (h : k.isA .div = true) : k = .div := by
  cases k <;> first
    | rfl
    | exact absurd h Bool.false_ne_true

theorem count_way {w : Wiki} {s : Option Nat} {l : List (Nat × Klass)} (h : Way w.doc s l) (k : Klass) (fuel m : Nat)
    (hm : w.countNesting k fuel s = .ok m) : m = (cls l).countP fun q => q.isA k := by
  induction h generalizing fuel m with
  | none => cases fuel <;> (simp [Wiki.countNesting] at hm; exact hm.symm)
  | some i n l hn _ ih =>
    cases fuel with
    | zero => simp [Wiki.countNesting] at hm
    | succ fuel =>
      unfold Wiki.countNesting at hm
      rw [hn] at hm
      dsimp only at hm
      split at hm
      · cases hm
      · next m' hm' =>
        cases hm
        rw [cls, List.map_cons, List.countP_cons, ← ih fuel m' hm']

def cited (l : List (Nat × Klass)) : Nat := (cls l).countP fun q => q.isA .citation

theorem leaveCited {n : Nat} {w : Wiki} {l : List (Nat × Klass)} (h : State w l) (ht : Top (cls l)) {w' : Wiki}
    (hw : times (fun w => w.leave [.citation]) n w = .ok w') : ∃ l', State w' l' ∧ Top (cls l') ∧ cited l' = cited l - n := by
  induction n generalizing w l with
  | zero =>
    cases hw
    exact ⟨l, h, ht, by simp⟩
  | succ n ih =>
    unfold times at hw
    simp only [bind, Except.bind] at hw
    split at hw
    · cases hw
    · next w1 h1 =>
      rcases leave_state h [.citation] h1 with ⟨rfl, b1⟩ | ⟨a, i, k, r, rfl, b2, b3, b4, _⟩
      · obtain ⟨l', c1, c2, c3⟩ := ih h ht hw
        refine ⟨l', c1, c2, ?_⟩
        have h0 : cited l = 0 := by
          unfold cited
          rw [List.countP_eq_zero]
          intro q hq
          obtain ⟨x, hx, rfl⟩ := List.mem_map.1 hq
          have := b1 x hx
          rw [one_any] at this
          simp [this]
        rw [c3, h0]
        omega
      · obtain ⟨l', c1, c2, c3⟩ := ih b4 (top_tail h.fit ht.2 (ks := [.citation]) (by decide) b2) hw
        refine ⟨l', c1, c2, ?_⟩
        rw [one_any] at b2
        have h0 : cited (a ++ (i, k) :: r) = cited r + 1 := by
          have ha : (cls a).countP (fun q => q.isA .citation) = 0 := by
            rw [List.countP_eq_zero]
            intro q hq
            obtain ⟨x, hx, rfl⟩ := List.mem_map.1 hq
            have := b3 x hx
            rw [one_any] at this
            simp [this]
          unfold cited
          rw [cls, List.map_append, List.countP_append, List.map_cons, List.countP_cons]
          rw [show (a.map (·.2)).countP (fun q => q.isA .citation) = 0 from ha]
          simp [b2]
        rw [c3, h0]
        omega

theorem enterCited {n : Nat} {w : Wiki} {l : List (Nat × Klass)} (h : State w l) (ht : Top (cls l)) {w' : Wiki}
    (hw : times (fun w => w.enter .citation) n w = .ok w') :
    ∃ l', State w' l' ∧ Top (cls l') ∧ (0 < n ∨ .citation ∈ cls l → .citation ∈ cls l') := by
  induction n generalizing w l with
  | zero =>
    cases hw
    exact ⟨l, h, ht, fun h => h.resolve_left (by omega)⟩
  | succ n ih =>
    unfold times at hw
    simp only [bind, Except.bind] at hw
    split at hw
    · cases hw
    · next w1 h1 =>
      obtain ⟨i, a1, _⟩ := enter_plain h (k := .citation) ht (by decide) (by decide) h1
      obtain ⟨l', b1, b2, b3⟩ := ih a1 (top_cons ht.2 rfl) hw
      exact ⟨l', b1, b2, fun _ => b3 (Or.inr (by simp [cls]))⟩

theorem cite_top {w : Wiki} {l : List (Nat × Klass)} (h : State w l) (ht : Top (cls l)) (m : Text) (hm : m.head? = some '>') :
    TopOk (w.cite m) := by
  intro w' hw
  unfold Wiki.cite at hw
  simp only [bind, Except.bind] at hw
  split at hw
  · cases hw
  · next nest hn =>
    have hc : nest = cited l := count_way h.doc.way _ _ _ hn
    have hi : 0 < (m.takeWhile (· = '>')).length := by
      cases m with
      | nil => cases hm
      | cons c m =>
        cases hm
        simp
    split at hw
    · cases hw
    · next w1 h1 =>
      obtain ⟨l1, a1, a2, a3⟩ := leaveCited h ht h1
      split at hw
      · cases hw
      · next w2 h2 =>
        obtain ⟨l2, b1, b2, b3⟩ := enterCited a1 a2 h2
        have hmem : .citation ∈ cls l2 := by
          apply b3
          by_cases hlt : nest < (m.takeWhile (· = '>')).length
          · exact Or.inl (by omega)
          · right
            have : 0 < cited l1 := by omega
            obtain ⟨q, hq, hqa⟩ := List.countP_pos_iff.1 this
            rw [← isA_citation q hqa]
            exact hq
        refine startIfNone_top b1 b2 .citationContent rfl (fun hno => ⟨b2, hmem, ?_⟩) w' hw
        intro hx
        obtain ⟨x, hx, hxc⟩ := List.mem_map.1 hx
        have := hno x hx
        rw [hxc] at this
        cases this

/-! ### Items -/

theorem leaveLists {n : Nat} {w : Wiki} {l : List (Nat × Klass)} (h : State w l) (hb : Base (cls l)) {w' : Wiki}
    (hw : times (fun w => w.leave [.list none]) n w = .ok w') : ∃ l', State w' l' ∧ Base (cls l') ∧ (n = 0 → l' = l) := by
  induction n generalizing w l with
  | zero =>
    cases hw
    exact ⟨l, h, hb, fun _ => rfl⟩
  | succ n ih =>
    unfold times at hw
    simp only [bind, Except.bind] at hw
    split at hw
    · cases hw
    · next w1 h1 =>
      rcases leave_state h [.list none] h1 with ⟨rfl, b1⟩ | ⟨a, i, k, r, rfl, b2, b3, b4, _⟩
      · obtain ⟨l', c1, c2, _⟩ := ih h hb hw
        exact ⟨l', c1, c2, fun h => by omega⟩
      · rw [one_any] at b2
        obtain ⟨d, rfl⟩ := (isA_isList k).1 b2
        obtain ⟨l', c1, c2, _⟩ := ih b4 (base_tail h.fit hb (by simp) (by simp) (by simp)) hw
        exact ⟨l', c1, c2, fun h => by omega⟩

theorem base_cons {l : List (Nat × Klass)} {i : Nat} {k : Klass} (hb : Base (cls l)) (h1 : k ≠ .anchor) (h2 : k ≠ .tableHeader) :
    Base (cls ((i, k) :: l)) := by
  obtain ⟨b1, b2, b3⟩ := hb
  refine ⟨List.mem_cons_of_mem _ b1, ?_, ?_⟩
  · intro h
    rcases List.mem_cons.1 h with h | h
    · exact h1 h.symm
    · exact b2 h
  · intro h
    rcases List.mem_cons.1 h with h | h
    · exact h2 h.symm
    · exact b3 h

theorem enterLists {n : Nat} {w : Wiki} {l : List (Nat × Klass)} (h : State w l) (hb : Base (cls l)) (hh : HeadOk (cls l) ∨ StarHead (cls l))
    {w' : Wiki} (hw : times (fun w => w.enter (.list (some .star))) n w = .ok w') :
    ∃ l', State w' l' ∧ Base (cls l') ∧ (HeadOk (cls l') ∨ StarHead (cls l')) := by
  induction n generalizing w l with
  | zero =>
    cases hw
    exact ⟨l, h, hb, hh⟩
  | succ n ih =>
    unfold times at hw
    simp only [bind, Except.bind] at hw
    split at hw
    · cases hw
    · next w1 h1 =>
      obtain ⟨i, a1, _⟩ := enter_plain h (k := .list (some .star)) ⟨hb, hh⟩ (by decide) (by decide) h1
      exact ih a1 (base_cons hb (by decide) (by decide)) (Or.inr ⟨cls l, rfl⟩) hw

theorem itemize_top {w : Wiki} {l : List (Nat × Klass)} (h : State w l) (ht : Top (cls l)) (m : Text) (g : List (Text × Text)) :
    TopOk (w.itemize m g) := by
  intro w' hw
  unfold Wiki.itemize at hw
  simp only [bind, Except.bind] at hw
  split at hw
  · cases hw
  · next nest hn =>
    split at hw
    · cases hw
    · next w1 h1 =>
      obtain ⟨l1, a1, a2, a3⟩ := leaveLists h ht.2 h1
      split at hw
      · cases hw
      · next w2 h2 =>
        have hs : ∃ l2, State w2 l2 ∧ Base (cls l2) := by
          unfold Wiki.toList at h2
          split at h2
          · rcases leave_state a1 [.itemize] h2 with ⟨rfl, _⟩ | ⟨a, i, k, r, rfl, b2, _, b4, _⟩
            · exact ⟨l1, a1, a2⟩
            · rw [one_any] at b2
              have := (isA_itemize k).1 b2
              subst this
              exact ⟨r, b4, base_tail a1.fit a2 (by decide) (by decide) (by decide)⟩
          · next hlt =>
            have hl := a3 (by omega)
            subst hl
            simp only [bind, Except.bind] at h2
            split at h2
            · cases h2
            · next w3 h3 =>
              obtain ⟨l3, b1, b2, b3⟩ := enterLists a1 a2 (Or.inl ht.1) h3
              obtain ⟨i, c1, _⟩ := enter_plain b1 (k := .list (some (designOf g))) ⟨b2, b3⟩ (by simp) (by simp) h2
              exact ⟨_, c1, base_cons b2 (by simp) (by simp)⟩
        obtain ⟨l2, s2, b2⟩ := hs
        unfold Wiki.enterItem at hw
        split at hw
        · next d hd =>
          have hlist : ListHead (cls l2) := by
            have hw2 := s2.doc.way
            unfold Editor.currentKlass at hd
            generalize hc : w2.doc.current = s at hd hw2
            cases hw2 with
            | none => simp at hd
            | some i n r hn _ =>
              rw [Option.bind_some, hn, Option.map_some] at hd
              have hd' := Option.some.inj hd
              exact ⟨d, cls r, by rw [cls, List.map_cons, hd']⟩
          obtain ⟨i, c1, _⟩ := enter_state s2 (k := .itemize) ⟨b2, hlist⟩ (by decide) (by decide)
            (by rintro y ⟨⟩; exact ⟨by simp, by simp⟩) hw
          exact ⟨_, c1, top_cons b2 rfl⟩
        · cases hw

/-! ### Quotations and definitions -/

theorem goto_top {w : Wiki} {a r : List (Nat × Klass)} {i : Nat} {k : Klass} (h : State w (a ++ (i, k) :: r)) (ht : Top (cls (a ++ (i, k) :: r)))
    (hk : usual k = true) (h1 : k ≠ .root) (h2 : k ≠ .div) (h3 : k ≠ .text) :
    ∃ l, State { w with doc := { w.doc with current := some i } } l ∧ Top (cls l) := by
  refine ⟨(i, k) :: r, move_state h _ (way_suffix h.doc.way rfl).1, hk, ?_⟩
  have hb := base_tail h.fit ht.2 h1 h2 h3
  obtain ⟨_, c2, c3⟩ := ht.2
  refine ⟨List.mem_cons_of_mem _ hb.1, fun hm => c2 ?_, fun hm => c3 ?_⟩ <;>
    (simp only [cls, List.map_append, List.mem_append]; exact Or.inr hm)

theorem quote_top {w : Wiki} {l : List (Nat × Klass)} (h : State w l) (ht : Top (cls l)) : TopOk w.quote := by
  intro w' hw
  unfold Wiki.quote at hw
  simp only [bind, Except.bind] at hw
  split at hw
  · cases hw
  · next r hr =>
    cases r with
    | none => exact startIfNone_top h ht .blockQuote rfl (fun _ => ht) w' hw
    | some i =>
      dsimp only at hw
      split at hw
      · cases hw
      · next r2 hr2 =>
        cases r2 with
        | none => exact enter_top h ht.2 .definitionBody rfl ht w' hw
        | some j =>
          rcases ancestor_state h [.definitionBody] _ hr2 with ⟨h1, _⟩ | ⟨a, i', k, r', h1, rfl, h3⟩
          · cases h1
          · cases h1
            rw [one_any] at h3
            have := isA_definitionBody k h3
            subst this
            cases hw
            exact goto_top h ht rfl (by decide) (by decide) (by decide)

theorem startDefinition_top {w : Wiki} {l : List (Nat × Klass)} (h : State w l) (ht : Top (cls l)) : TopOk w.startDefinition := by
  intro w' hw
  unfold Wiki.startDefinition at hw
  simp only [bind, Except.bind] at hw
  split at hw
  · cases hw
  · next w1 h1 =>
    rcases startIfNone_state h .definitionList rfl (fun _ => ht) h1 with ⟨rfl, x, hx, hxa⟩ | ⟨_, i, h2⟩
    · exact enter_top h ht.2 .definitionHeader rfl ⟨ht, List.mem_map.2 ⟨x, hx, isA_deflist _ hxa⟩⟩ w' hw
    · have t2 : Top (cls ((i, Klass.definitionList) :: l)) := top_cons ht.2 rfl
      exact enter_top h2 t2.2 .definitionHeader rfl ⟨t2, by simp [cls]⟩ w' hw

theorem endDefinition_top {w : Wiki} {l : List (Nat × Klass)} (h : State w l) (ht : Top (cls l)) : TopOk w.endDefinition :=
  topOk_bind (leave_top h ht [.definitionHeader] (by decide)) fun _ _ h1 t1 => enter_top h1 t1.2 .definitionBody rfl t1

/-! ### Macros -/

/-- The operations come back to where they began. -/
def Back (l : List (Nat × Klass)) (os : List Op) : Prop := ∀ w w', State w l → w.run os = .ok w' → State w' l

theorem run_append (w : Wiki) (a b : List Op) : w.run (a ++ b) = match w.run a with
    | .error x => .error x
    | .ok w' => w'.run b := by
  induction a generalizing w with
  | nil => rfl
  | cons o a ih =>
    unfold Wiki.run
    rw [List.cons_append, Editor.run, Editor.run]
    cases h : w.doc.apply o with
    | error x => rfl
    | ok d =>
      have := ih { w with doc := d }
      unfold Wiki.run at this
      exact this

theorem back_nil (l : List (Nat × Klass)) : Back l [] := by
  intro w w' h hw
  cases hw
  exact h

theorem back_append {l : List (Nat × Klass)} {a b : List Op} (ha : Back l a) (hb : Back l b) : Back l (a ++ b) := by
  intro w w' h hw
  rw [run_append] at hw
  split at hw
  · cases hw
  · next w1 h1 => exact hb w1 w' (ha w w1 h h1) hw

theorem back_flatMap {α : Type} {l : List (Nat × Klass)} {f : α → List Op} (xs : List α) (h : ∀ x, Back l (f x)) : Back l (xs.flatMap f) := by
  induction xs with
  | nil => exact back_nil l
  | cons x xs ih => rw [List.flatMap_cons]; exact back_append (h x) ih

theorem back_text {l : List (Nat × Klass)} (hh : HeadOk (cls l)) (t : Text) : Back l [.text t] := by
  intro w w' h hw
  refine text_state h hh (t := t) (w' := w') ?_
  unfold Wiki.run Editor.run Editor.apply at hw
  unfold Wiki.text
  dsimp only at hw
  cases hd : w.doc.appendText t with
  | error x => rw [hd] at hw; cases hw
  | ok d => rw [hd] at hw; exact hw

theorem run_enter (w : Wiki) (k : Klass) (os : List Op) : w.run (.enter k :: os) = match w.enter k with
    | .error x => .error x
    | .ok w' => w'.run os := by
  rw [Wiki.run, Editor.run, Editor.apply, Editor.enter, Wiki.enter]
  cases w.doc.append k with
  | error x => rfl
  | ok x => rfl

theorem run_leave (w : Wiki) (k : Klass) (os : List Op) : w.run (.leave k :: os) = match w.leave [k] with
    | .error x => .error x
    | .ok w' => w'.run os := by
  rw [Wiki.run, Editor.run, Editor.apply, Editor.leave, Wiki.leave]
  have hf : (fun n : Node => [k].any fun k => n.klass.isA k) = fun n => n.klass.isA k := by
    funext n
    simp
  rw [hf]
  cases h : w.doc.climb (fun n => n.klass.isA k) (w.doc.nodes.length + 1) w.doc.current with
  | error x => rfl
  | ok r => cases r <;> rfl

theorem back_in {l : List (Nat × Klass)} {k : Klass} (hf : Fits k (cls l)) (h1 : k ≠ .text) (h2 : k ≠ .element) (h3 : k.isA k = true) {os : List Op}
    (h : ∀ i, Back ((i, k) :: l) os) : Back l ([.enter k] ++ os ++ [.leave k]) := by
  intro w w' hs hw
  rw [List.append_assoc, List.singleton_append, run_enter] at hw
  split at hw
  · cases hw
  · next w1 e1 =>
    obtain ⟨i, a1, _⟩ := enter_plain hs hf h1 h2 e1
    rw [run_append] at hw
    split at hw
    · cases hw
    · next w2 e2 =>
      have a2 := h i w1 w2 a1 e2
      rw [run_leave] at hw
      split at hw
      · cases hw
      · next w3 e3 =>
        cases hw
        exact (leave_head a2 [k] (by rw [one_any]; exact h3) e3).1

theorem back_cell {l : List (Nat × Klass)} {k : Klass} (hf : Fits k (cls l)) (hu : usual k = true) (h2 : k ≠ .element) (h1 : k ≠ .text)
    (h3 : k.isA k = true) (t : Text) : Back l (cell k t) :=
  back_in hf h1 h2 h3 fun _ => back_text (usual_head hu) t

theorem base_row {l : List (Nat × Klass)} {i : Nat} (ht : Top (cls l)) : Base (cls ((i, Klass.tableRow) :: l)) ∧ RowHead (cls ((i, Klass.tableRow) :: l)) :=
  ⟨base_cons ht.2 (by decide) (by decide), cls l, rfl⟩

theorem back_row {l : List (Nat × Klass)} (ht : Top (cls l)) (hm : .table ∈ cls l) {os : List Op} (h : ∀ i, Back ((i, .tableRow) :: l) os) :
    Back l ([.enter .tableRow] ++ os ++ [.leave .tableRow]) := back_in (k := .tableRow) ⟨ht, hm⟩ (by decide) (by decide) rfl h

theorem back_td {l : List (Nat × Klass)} {i : Nat} (ht : Top (cls l)) (t : Text) : Back ((i, .tableRow) :: l) (cell .tableCell t) :=
  back_cell (k := .tableCell) (base_row ht) rfl (by decide) (by decide) rfl t

theorem back_th {l : List (Nat × Klass)} {i : Nat} (ht : Top (cls l)) (t : Text) : Back ((i, .tableRow) :: l) (cell .tableHeader t) :=
  back_cell (k := .tableHeader) (base_row ht) rfl (by decide) (by decide) rfl t

theorem back_table {l : List (Nat × Klass)} (ht : Top (cls l)) {os : List Op} (h : ∀ i, Top (cls ((i, .table) :: l)) → Klass.table ∈ cls ((i, .table) :: l) →
    Back ((i, .table) :: l) os) : Back l ([.enter .table] ++ os ++ [.leave .table]) :=
  back_in (k := .table) ht (by decide) (by decide) rfl fun i => h i (top_cons ht.2 rfl) (by simp [cls])

theorem back_rowOps {l : List (Nat × Klass)} (ht : Top (cls l)) (hm : .table ∈ cls l) (n : Int) (cells : List Text) : Back l (rowOps n cells) := by
  unfold rowOps
  rw [List.append_assoc [Op.enter .tableRow]]
  exact back_row ht hm fun _ => back_append (back_th ht _) (back_flatMap _ fun _ => back_td ht _)

theorem back_chanceRow {l : List (Nat × Klass)} (ht : Top (cls l)) (hm : .table ∈ cls l) (cells : List Text) : Back l (chanceRow cells) :=
  back_row ht hm fun _ => back_flatMap _ fun _ => back_td ht _

theorem back_headers {l : List (Nat × Klass)} (ht : Top (cls l)) (hm : .table ∈ cls l) (cells : List Text) :
    Back l ([.enter .tableRow] ++ cells.flatMap (cell .tableHeader) ++ [.leave .tableRow]) :=
  back_row ht hm fun _ => back_flatMap _ fun _ => back_th ht _

theorem back_analysis {l : List (Nat × Klass)} (ht : Top (cls l)) (a : Analysis) : Back l (analysisOps a) := by
  cases a with
  | cube c rows =>
    unfold analysisOps
    dsimp only
    have e : cubelessOps c ++ [Op.enter .table] ++ cubeHeader ++ rows.flatMap (fun r => rowOps r.1 r.2) ++ [.leave .table] =
        cubelessOps c ++ ([Op.enter .table] ++ (cubeHeader ++ rows.flatMap (fun r => rowOps r.1 r.2)) ++ [.leave .table]) := by simp
    rw [e]
    refine back_append ?_ (back_table ht fun i t m => back_append ?_ (back_flatMap _ fun _ => back_rowOps t m _ _))
    · have e : cubelessOps c = [Op.enter .table] ++ ((([.enter .tableRow] ++ [t!"Ply", t!"Cubeless Eq. "].flatMap (cell .tableHeader) ++ [.leave .tableRow]) ++
          ([.enter .tableRow] ++ [t!"Win", t!"WinG", t!"WinBg", t!"Lose", t!"LoseG", t!"LoseBg"].flatMap (cell .tableHeader) ++ [.leave .tableRow])) ++
          (chanceRow (c.take 2) ++ chanceRow (c.drop 2))) ++ [.leave .table] := by
        simp [cubelessOps, chanceRow]
      rw [e]
      exact back_table ht fun i t m => back_append (back_append (back_headers t m _) (back_headers t m _))
        (back_append (back_chanceRow t m _) (back_chanceRow t m _))
    · have e : cubeHeader = [.enter .tableRow] ++ [t!"#", t!"action", t!" Cubeful Eq. "].flatMap (cell .tableHeader) ++ [.leave .tableRow] := by
        simp [cubeHeader]
      rw [e]
      exact back_headers t m _
  | moves rows =>
    unfold analysisOps
    dsimp only
    have e : [Op.enter .table] ++ moveHeader ++ rows.flatMap (fun r => rowOps r.1 (r.2.take 3) ++ chanceRow (r.2.drop 3)) ++ [.leave .table] =
        [Op.enter .table] ++ (moveHeader ++ rows.flatMap (fun r => rowOps r.1 (r.2.take 3) ++ chanceRow (r.2.drop 3))) ++ [.leave .table] := by simp
    rw [e]
    refine back_table ht fun i t m => back_append ?_ (back_flatMap _ fun _ => back_append (back_rowOps t m _ _) (back_chanceRow t m _))
    have e : moveHeader = ([.enter .tableRow] ++ [t!"#", t!"move", t!"Ply", t!"Eq.(diff)"].flatMap (cell .tableHeader) ++ [.leave .tableRow]) ++
        ([.enter .tableRow] ++ [t!"Win", t!"WinG", t!"WinBg", t!"Lose", t!"LoseG", t!"LoseBg"].flatMap (cell .tableHeader) ++ [.leave .tableRow]) := by
      simp [moveHeader]
    rw [e]
    exact back_append (back_headers t m _) (back_headers t m _)

theorem back_top {w : Wiki} {l : List (Nat × Klass)} (h : State w l) (ht : Top (cls l)) {os : List Op} (hb : Back l os) : TopOk (w.run os) :=
  fun w' hw => ⟨l, hb w w' h hw, ht⟩

theorem span_back {l : List (Nat × Klass)} (ht : Top (cls l)) (t : Text) : Back l (cell .span t) :=
  back_cell (k := .span) ⟨ht.1, ht.2.1⟩ rfl (by decide) (by decide) rfl t

theorem dispatch_top {w : Wiki} {l : List (Nat × Klass)} (h : State w l) (ht : Top (cls l)) (env : Env) (name : Text) (args : Option Text)
    (hn : name ≠ t!"TableOfContent") : TopOk (w.dispatch env name args) := by
  unfold Wiki.dispatch
  split
  · exact back_top h ht (back_in (k := .br) ht (by decide) (by decide) rfl fun _ => back_nil _)
  · split
    · exact back_top h ht (back_cell (k := .bold) ht rfl (by decide) (by decide) rfl _)
    · split
      · split
        · intro w' hw; cases hw
        · exact back_top h ht (span_back ht _)
        · intro w' hw
          rw [run_enter] at hw
          split at hw
          · cases hw
          · next w1 e1 =>
            obtain ⟨i, a1, _⟩ := enter_plain h (k := .span) ⟨ht.1, ht.2.1⟩ (by decide) (by decide) e1
            rw [run_enter] at hw
            split at hw
            · cases hw
            · next w2 e2 =>
              obtain ⟨j, a2, _⟩ := enter_plain a1 (k := .img) ⟨⟨_, rfl⟩, List.mem_cons_of_mem _ ht.2.1⟩ (by decide) (by decide) e2
              rw [run_leave] at hw
              split at hw
              · cases hw
              · next w3 e3 =>
                cases hw
                exact ⟨_, (leave_head a2 [.span] (by decide) e3).1, top_cons ht.2 rfl⟩
      · split
        · split
          · intro w' hw; cases hw
          · exact back_top h ht (span_back ht _)
          · split
            · intro w' hw; cases hw
            · split
              · exact back_top h ht (back_analysis ht _)
              · intro w' hw; cases hw
        · exact back_top h ht (span_back ht _)

/-! ### Lines -/

theorem citation_match {line : Text} {x : Pat × Text × List (Text × Text)} (M : MatchAt linePatterns line x)
    (h : x.1 = .citation) : x.2.1.head? = some '>' := by
  obtain ⟨r, h1, h2, h3, h4, _⟩ := match_re M (fun y => y.1 ≠ .citation || y.2 = .all' [.bol, .plus (.ch '>'), .ch ' ']) (by decide)
  simp only [h, ne_eq, not_true_eq_false, decide_false, Bool.false_or, decide_eq_true_eq] at h1
  subst h1
  obtain ⟨p1, a1, h2⟩ := mem_seq (a := .bol) h2
  obtain ⟨hstart, rfl⟩ := mem_bol a1
  obtain ⟨p2, a2, a3⟩ := mem_seq (a := .plus (.ch '>')) h2
  obtain ⟨t, hne, b2, c2, d2⟩ := mem_plus_set a2
  obtain ⟨e1, _⟩ := mem_ch a3
  rw [e1] at b2
  have : x.2.1 = t ++ [' '] := List.append_cancel_right (h3.symm.trans (by rw [b2]; simp))
  rw [this]
  cases t with
  | nil => exact absurd rfl hne
  | cons c t => rw [(charSet_single '>' c).1 (d2 c (by simp))]; rfl

/-- Where a block begins there is nothing else on the line. -/
theorem block_line {line : Text} {x : Pat × Text × List (Text × Text)} (M : MatchAt linePatterns line x)
    (h : x.1 = .preformatStart) : finditer linePatterns line = [(.preformatStart, t!"{{{", [])] ∧ endsDefinition line = false := by
  obtain ⟨r, h1, h2, h3, h4, _⟩ := match_re M (fun y => y.1 ≠ .preformatStart || y.2 = .all' [bang, .bol, .lit t!"{{{", .eol]) (by decide)
  simp only [h, ne_eq, not_true_eq_false, decide_false, Bool.false_or, decide_eq_true_eq] at h1
  subst h1
  obtain ⟨p1, a1, h2⟩ := mem_seq (a := bang) h2
  obtain ⟨p2, a2, h5⟩ := mem_seq (a := .bol) h2
  obtain ⟨hstart, rfl⟩ := mem_bol a2
  obtain ⟨p3, a3, a4⟩ := mem_seq (a := .lit t!"{{{") h5
  obtain ⟨b1, _⟩ := mem_lit a3
  have hp : p2 = M.p := by
    rcases mem_opt a1 with h | h
    · exact h
    · exfalso
      unfold Re.ch Re.all at h
      split at h
      · simp at h
      · simp at h
        rw [h.2] at hstart
        cases hstart
  subst hp
  have hb := M.start hstart
  have hr : p3.rest = [] ∨ p3.rest = ['\n'] := by
    have a4 : M.q ∈ if p3.rest = [] ∨ p3.rest = ['\n'] then [p3] else [] := a4
    split at a4
    · assumption
    · simp at a4
  have hline : line = t!"{{{" ∨ line = t!"{{{\n" := by
    rw [M.line_eq, hb, b1]
    rcases hr with hr | hr <;> rw [hr]
    · exact Or.inl rfl
    · exact Or.inr rfl
  rcases hline with rfl | rfl
  · exact ⟨by rfl, by decide⟩
  · exact ⟨by rfl, by decide⟩

theorem handle_top {env : Env} {line : Text} {w : Wiki} {l : List (Nat × Klass)} (h : State w l) (ht : Top (cls l))
    {x : Pat × Text × List (Text × Text)} (M : MatchAt linePatterns line x) (hp : x.1 ≠ .preformatStart)
    (hc : ¬ Contains line t!"[[TableOfContent") : TopOk (w.handle env x.1 x.2.1 x.2.2) := by
  have hcit := fun h : x.1 = .citation => citation_match M h
  have hmac := fun h : x.1 = .macro => macro_match M h
  have hcon := match_contains M
  clear M
  obtain ⟨p, m, g⟩ := x
  dsimp only at *
  unfold Wiki.handle
  cases p <;> dsimp only
  case preformatStart => exact absurd rfl hp
  case «macro» =>
    obtain ⟨name, h1, _, h3⟩ := hmac rfl
    rw [h1, Option.getD_some]
    refine dispatch_top h ht env name _ ?_
    rintro rfl
    refine hc (contains_trans hcon ?_)
    rcases h3 with ⟨_, h⟩ | ⟨args, _, h⟩
    · exact ⟨[], t!"]]", by rw [h]; simp⟩
    · exact ⟨[], t!"(" ++ args ++ t!")]]", by rw [h]; simp⟩
  case itemize => exact itemize_top h ht m g
  case rest => exact text_top h ht _
  case escapeHtml => exact text_top h ht _
  case bolditalic => exact boldItalic_top h ht
  case tableCell => exact tableCell_top h ht
  case citation => exact cite_top h ht m (hcit rfl)
  case quote => exact quote_top h ht
  case monospaceStart => exact enter_top h ht.2 .monospace rfl ht
  case entryLink => exact link_top h ht _ _
  case queryLink => exact link_top h ht _ _
  case matchLink => exact link_top h ht _ _
  case camelcase => exact link_top h ht _ _
  case schemeWikiname => exact link_top h ht _ _
  case autoAnchor => exact extLink_top h ht _ _
  case schemeUrl => exact extLink_top h ht _ _
  all_goals first
    | exact topOk_ok h ht
    | exact startOrEnd_top h ht _ rfl (by decide) id
    | exact leave_top h ht _ (by decide)

theorem items_top {env : Env} {line : Text} (hc : ¬ Contains line t!"[[TableOfContent") (xs : List (Pat × Text × List (Text × Text)))
    (hxs : ∀ x ∈ xs, Nonempty (MatchAt linePatterns line x)) (hp : ∀ x ∈ xs, x.1 ≠ .preformatStart) {w : Wiki} {l : List (Nat × Klass)}
    (h : State w l) (ht : Top (cls l)) : TopOk (w.items env xs) := by
  induction xs generalizing w l with
  | nil => exact topOk_ok h ht
  | cons x xs ih =>
    obtain ⟨M⟩ := hxs x (by simp)
    unfold Wiki.items
    refine topOk_bind ?_ fun w' l' h' t' => ih (fun y hy => hxs y (by simp [hy])) (fun y hy => hp y (by simp [hy])) h' t'
    unfold Wiki.item
    split
    · exact text_top h ht _
    · exact handle_top h ht M (hp x (by simp)) hc

/-- Between lines: at the root, between marks, or in a block. -/
def Rests (w : Wiki) : Prop :=
  ∃ l, State w l ∧ (cls l = [.root] ∨ Top (cls l) ∨ ∃ i r, l = (i, .element) :: r ∧ Top (cls r))

theorem onlyIf_top {w : Wiki} {l : List (Nat × Klass)} (h : State w l) (ht : Top (cls l)) (b : Bool) (f : Wiki → Py Wiki)
    (hf : ∀ w l, State w l → Top (cls l) → TopOk (f w)) : TopOk (w.onlyIf b f) := by
  unfold Wiki.onlyIf
  split
  · exact hf w l h ht
  · exact topOk_ok h ht

theorem not_block {w : Wiki} (h : Rests w) (hb : w.block = none) : ∃ l, State w l ∧ (cls l = [.root] ∨ Top (cls l)) := by
  obtain ⟨l, hs, h | h | ⟨i, r, rfl, ht⟩⟩ := h
  · exact ⟨l, hs, Or.inl h⟩
  · exact ⟨l, hs, Or.inr h⟩
  · exfalso
    obtain ⟨_, n, h1, h2, _⟩ := way_suffix (a := []) hs.doc.way rfl
    obtain ⟨b, r', h3⟩ := hs.beside.element i n h1 h2
    have hcur : w.doc.current = some i := by
      have := hs.doc.way
      generalize w.doc.current = s at this
      generalize hl : (i, Klass.element) :: r = l at this
      cases this with
      | none => cases hl
      | some j m l' _ _ => rw [(Prod.mk.inj (List.cons.inj hl).1).1]
    unfold Wiki.block at hb
    rw [hcur] at hb
    dsimp only at hb
    rw [h3] at hb
    cases hb

theorem parseLine_rests {env : Env} {line : Text} (hc : ¬ Contains line t!"[[TableOfContent") {w : Wiki} (h : Rests w) (hb : w.block = none)
    {w' : Wiki} (hw : w.parseLine env line = .ok w') : Rests w' := by
  obtain ⟨l, hs, hl⟩ := not_block h hb
  cases line with
  | nil =>
    unfold Wiki.parseLine at hw
    simp only [bind, Except.bind] at hw
    split at hw
    · cases hw
    · next w1 h1 =>
      cases hw
      have hs1 : ∃ l1, State w1 l1 := by
        rcases leave_state hs [.div] h1 with ⟨rfl, _⟩ | ⟨_, _, _, r, _, _, _, h4, _⟩
        · exact ⟨l, hs⟩
        · exact ⟨r, h4⟩
      obtain ⟨l1, s1⟩ := hs1
      obtain ⟨n, k1, k2, k3⟩ := s1.doc.nest.root
      have hway : Way w1.doc (some 0) [(0, .root)] := by
        rw [← k2]
        refine .some 0 n [] k1 ?_
        rw [k3]
        exact .none
      exact ⟨_, move_state s1 (some 0) hway, Or.inl rfl⟩
  | cons c rest =>
    unfold Wiki.parseLine at hw
    have h1 : TopOk (w.startIfNone .div) := by
      rcases hl with hl | hl
      · intro w1 e1
        rcases startIfNone_state hs .div rfl (fun _ => hl) e1 with ⟨_, x, hx, hxa⟩ | ⟨_, i, h2⟩
        · have hm := List.mem_map.2 ⟨x, hx, isA_divs _ hxa⟩
          rw [show l.map (·.2) = [.root] from hl] at hm
          simp at hm
        · refine ⟨_, h2, rfl, by simp [cls], ?_, ?_⟩
          · simp only [cls, List.map_cons]
            rw [show l.map (·.2) = [.root] from hl]
            decide
          · simp only [cls, List.map_cons]
            rw [show l.map (·.2) = [.root] from hl]
            decide
      · intro w1 e1
        rcases startIfNone_state hs .div rfl (fun hno => by
          exfalso
          obtain ⟨x, hx, hxc⟩ := List.mem_map.1 hl.2.1
          have := hno x hx
          rw [hxc] at this
          cases this) e1 with ⟨rfl, _⟩ | ⟨hno, _⟩
        · exact ⟨l, hs, hl⟩
        · exfalso
          obtain ⟨x, hx, hxc⟩ := List.mem_map.1 hl.2.1
          have := hno x hx
          rw [hxc] at this
          cases this
    by_cases hblock : ∃ x ∈ finditer linePatterns (c :: rest), x.1 = .preformatStart
    · obtain ⟨x, hx, hxp⟩ := hblock
      obtain ⟨M⟩ := finditer_mem _ _ _ hx
      obtain ⟨hit, hend⟩ := block_line M hxp
      rw [hit, hend] at hw
      have key : ∀ {a : Py Wiki} {f : Wiki → Py Wiki}, TopOk a → (a >>= f) = .ok w' → ∃ w1 l1, State w1 l1 ∧ Top (cls l1) ∧ f w1 = .ok w' := by
        intro a f ha hf
        cases a with
        | error e => cases hf
        | ok w1 =>
          obtain ⟨l1, s1, t1⟩ := ha w1 rfl
          exact ⟨w1, l1, s1, t1, hf⟩
      obtain ⟨w1, l1, s1, t1, hw⟩ := key h1 hw
      obtain ⟨w2, l2, s2, t2, hw⟩ := key (onlyIf_top s1 t1 _ _ fun _ _ h t => leave_top h t _ (by decide)) hw
      obtain ⟨w3, l3, s3, t3, hw⟩ := key (onlyIf_top s2 t2 _ _ fun _ _ h t => leave_top h t _ (by decide)) hw
      obtain ⟨w4, l4, s4, t4, hw⟩ := key (onlyIf_top s3 t3 false _ fun _ _ h t => startDefinition_top h t) hw
      simp only [Wiki.items, Wiki.item, Wiki.handle, Wiki.onlyIf, bind, Except.bind] at hw
      rw [if_neg (by decide)] at hw
      split at hw
      · cases hw
      · next w5 h5 =>
        simp only [Bool.false_eq_true, if_false] at hw
        cases hw
        split at h5
        · cases h5
        · next w6 h6 =>
          cases h5
          obtain ⟨i, s6⟩ := enter_block s4 t4 h6
          exact ⟨_, s6, Or.inr (Or.inr ⟨i, l4, rfl, t4⟩)⟩
    · have : TopOk (w.parseLine env (c :: rest)) := by
        unfold Wiki.parseLine
        refine topOk_bind h1 fun w1 l1 s1 t1 => ?_
        refine topOk_bind (onlyIf_top s1 t1 _ _ fun _ _ h t => leave_top h t _ (by decide)) fun w2 l2 s2 t2 => ?_
        refine topOk_bind (onlyIf_top s2 t2 _ _ fun _ _ h t => leave_top h t _ (by decide)) fun w3 l3 s3 t3 => ?_
        refine topOk_bind (onlyIf_top s3 t3 _ _ fun _ _ h t => startDefinition_top h t) fun w4 l4 s4 t4 => ?_
        refine topOk_bind (items_top hc _ (fun x hx => finditer_mem _ _ _ hx) (fun x hx hxp => hblock ⟨x, hx, hxp⟩) s4 t4) fun w5 l5 s5 t5 => ?_
        exact onlyIf_top s5 t5 _ _ fun _ _ h t => endDefinition_top h t
      unfold Wiki.parseLine at this
      obtain ⟨l', s', t'⟩ := this w' hw
      exact ⟨l', s', Or.inr (Or.inl t')⟩

theorem parseBlock_rests {w : Wiki} (h : Rests w) {c : Nat} {buf : Text} {rst : Bool} (hb : w.block = some (c, buf, rst)) {line : Text}
    {w' : Wiki} (hw : w.parseBlock c buf rst line = .ok w') : Rests w' := by
  have hx : w.doc.current = some c ∧ w.extra c = some (.block buf rst) := by
    unfold Wiki.block at hb
    split at hb
    · cases hb
    · next c' hc' =>
      split at hb
      · next b r hx => cases hb; exact ⟨hc', hx⟩
      · cases hb
  obtain ⟨hcur, hext⟩ := hx
  obtain ⟨l, hs, hl⟩ := h
  obtain ⟨n, k1, k2⟩ := hs.beside.block c buf rst (extra_mem hext)
  have hhead : ∃ r, l = (c, .element) :: r := by
    have := hs.doc.way
    rw [hcur] at this
    cases this with
    | some _ m r hm _ =>
      rw [k1] at hm
      cases hm
      rw [k2]
      exact ⟨r, rfl⟩
  obtain ⟨r, rfl⟩ := hhead
  have ht : Top (cls r) := by
    rcases hl with h | h | ⟨i, r', h, ht⟩
    · cases h
    · exact absurd h.1 Bool.false_ne_true
    · cases h; exact ht
  have hside : ∀ b' r', Rests { w with side := (c, .block b' r') :: w.side } := by
    intro b' r'
    refine ⟨_, ⟨hs.doc, ?_, ?_, ?_⟩, Or.inr (Or.inr ⟨c, r, rfl, ht⟩)⟩
    · intro i hi
      rcases List.mem_cons.1 hi with hi | hi
      · cases hi
      · exact hs.beside.toc i hi
    · intro i b q hi
      rcases List.mem_cons.1 hi with hi | hi
      · cases hi; exact ⟨n, k1, k2⟩
      · exact hs.beside.block i b q hi
    · intro i m hi hm
      by_cases hic : c = i
      · subst hic
        exact ⟨b', r', by simp [Wiki.extra]⟩
      · obtain ⟨b, q, h3⟩ := hs.beside.element i m hi hm
        refine ⟨b, q, ?_⟩
        unfold Wiki.extra at h3 ⊢
        dsimp only
        rw [List.find?_cons_of_neg (by simpa using hic)]
        exact h3
  unfold Wiki.parseBlock at hw
  split at hw
  · exact ⟨r, (leave_head hs [.element] (by decide) hw).1, Or.inr (Or.inl ht)⟩
  · split at hw
    · cases hw; exact hside _ _
    · cases hw; exact hside _ _

theorem lines_rests {env : Env} {text : Text} (hc : ¬ Contains text t!"[[TableOfContent") (ls : List Text) (hls : ∀ l ∈ ls, Contains text l)
    {w w' : Wiki} (h : Rests w) (hw : w.lines env ls = .ok w') : Rests w' := by
  induction ls generalizing w with
  | nil => cases hw; exact h
  | cons l ls ih =>
    unfold Wiki.lines at hw
    simp only [bind, Except.bind] at hw
    split at hw
    · cases hw
    · next w1 h1 =>
      refine ih (fun y hy => hls y (by simp [hy])) ?_ hw
      unfold Wiki.line at h1
      split at h1
      · next c buf rst hb => exact parseBlock_rests h hb h1
      · next hb => exact parseLine_rests (fun hx => hc (contains_trans (hls l (by simp)) hx)) h hb h1

theorem start_rests : Rests Wiki.start := by
  refine ⟨[(0, .root)], ⟨⟨start_nest, ?_⟩, ?_, ?_, ?_⟩, Or.inl rfl⟩
  · exact .some 0 ⟨.root, none, [], []⟩ [] rfl .none
  · intro i h; cases h
  · intro i b r h; cases h
  · intro i n h hk
    exfalso
    cases i with
    | zero =>
      simp [Wiki.start, Editor.start] at h
      subst h
      cases hk
    | succ i => simp [Wiki.start, Editor.start] at h

theorem parse_rests {env : Env} {text : Text} (hc : ¬ Contains text t!"[[TableOfContent") {w : Wiki} (hw : Wiki.start.parse env text = .ok w) :
    Rests w :=
  lines_rests hc _ (fun l hl => by
    obtain ⟨a, b, h1, _⟩ := split_lines [] text l hl
    exact ⟨a, b, h1⟩) start_rests hw

end Bglib.Nesting
