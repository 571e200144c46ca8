import Verif.Lemmas.NestingParse
import Verif.Spec.Doctree
import Verif.Spec.Document
/-
What is written where, when the HTML of a document is made.
-/
namespace Bglib.Nesting
open Bglib Bglib.Spec Bglib.Doc Bglib.Spec.Nesting

/-! ### Tokens -/

/-- The tokens may be there, and leave the elements around as they were. -/
def In (may : Text → List Text) (st : List Text) (b : List Tok) : Prop := ∀ r, Obeys may st (b ++ r) = Obeys may st r

theorem in_nil (may : Text → List Text) (st : List Text) : In may st [] := fun _ => rfl

theorem in_append {may : Text → List Text} {st : List Text} {a b : List Tok} (ha : In may st a) (hb : In may st b) : In may st (a ++ b) := by
  intro r
  rw [List.append_assoc, ha, hb]

theorem in_flatMap {α : Type} {may : Text → List Text} {st : List Text} {f : α → List Tok} (xs : List α) (h : ∀ x ∈ xs, In may st (f x)) :
    In may st (xs.flatMap f) := by
  induction xs with
  | nil => exact in_nil _ _
  | cons x xs ih =>
    rw [List.flatMap_cons]
    exact in_append (h x (by simp)) (ih fun y hy => h y (by simp [hy]))

theorem in_element {may : Text → List Text} {p : Text} {ps : List Text} {t : Text} {b : List Tok} (h : t ∈ may p)
    (ha : t = t!"a" → t!"a" ∉ p :: ps) (hb : In may (t :: p :: ps) b) : In may (p :: ps) (.opening t :: b ++ [.closing t]) := by
  intro r
  rw [List.cons_append, List.cons_append, List.append_assoc, Obeys, hb, List.cons_append, Obeys, List.nil_append]
  have h1 : (decide (t ∈ may p)) = true := by simpa using h
  have h2 : (decide (t ≠ t!"a") || decide (t!"a" ∉ p :: ps)) = true := by
    by_cases ht : t = t!"a"
    · simp [ht, ha ht]
    · simp [ht]
  rw [h1, h2, Bool.true_and, Bool.true_and]

theorem in_single {may : Text → List Text} {p : Text} {ps : List Text} {t : Text} (h : t ∈ may p) : In may (p :: ps) [.single t] := by
  intro r
  rw [List.cons_append, Obeys, List.nil_append]
  have h1 : (decide (t ∈ may p)) = true := by simpa using h
  rw [h1, Bool.true_and]

theorem in_text {may : Text → List Text} {p : Text} {ps : List Text} (h : pcdata ∈ may p) (t : Text) : In may (p :: ps) [.text t] := by
  intro r
  rw [List.cons_append, Obeys, List.nil_append]
  have h1 : (decide (pcdata ∈ may p)) = true := by simpa using h
  rw [h1, Bool.or_true, Bool.true_and]

theorem in_obeys {may : Text → List Text} {st : List Text} {b : List Tok} (h : In may st b) : Obeys may st b = true := by
  have := h []
  rw [List.append_nil] at this
  rw [this]
  cases st <;> rfl

theorem balanced_obeys (may : Text → List Text) {b : List Tok} (h : Balanced b) (p : Text) (ps : List Text) (r : List Tok) :
    Obeys may (p :: ps) (b ++ r) = (Obeys may (p :: ps) b && Obeys may (p :: ps) r) := by
  induction h generalizing p ps r with
  | nil => simp [Obeys]
  | text t => simp [Obeys]
  | single t => simp [Obeys]
  | wrap t b _ ih =>
    rw [List.cons_append, List.cons_append, List.append_assoc, Obeys, Obeys, ih, ih, List.cons_append, Obeys, Obeys, List.nil_append]
    simp [Obeys, Bool.and_assoc]
  | append a b _ _ iha ihb =>
    rw [List.append_assoc, iha, ihb, iha p ps b, Bool.and_assoc]

theorem obeys_mono {may may' : Text → List Text} (hm : ∀ p t, t ∈ may p → t ∈ may' p) (b : List Tok) (st : List Text)
    (h : Obeys may st b = true) : Obeys may' st b = true := by
  induction b generalizing st with
  | nil => cases st <;> rfl
  | cons x b ih =>
    cases st with
    | nil => cases x <;> exact absurd h Bool.false_ne_true
    | cons p ps =>
      cases x <;> unfold Obeys at h ⊢
      case closing => exact ih _ h
      all_goals simp only [Bool.and_eq_true, Bool.or_eq_true, decide_eq_true_eq] at h ⊢
      · exact ⟨⟨hm _ _ h.1.1, h.1.2⟩, ih _ h.2⟩
      · exact ⟨hm _ _ h.1, ih _ h.2⟩
      · exact ⟨h.1.imp id (hm _ _), ih _ h.2⟩

theorem in_balanced {may may' : Text → List Text} (hm : ∀ p t, t ∈ may p → t ∈ may' p) {b : List Tok} (hb : Balanced b) {p : Text} {ps : List Text}
    (h : Obeys may (p :: ps) b = true) : In may' (p :: ps) b := by
  intro r
  rw [balanced_obeys may' hb, obeys_mono hm b _ h, Bool.true_and]

/-! ### Classes -/

/-- What may be where, and what is there nevertheless. -/
def wide (p : Text) : List Text := inside p ++ strays p

/-- The element the children of a node are in. -/
def around : Klass → Option Text
  | .root => some t!"body"
  | .blockQuote => some t!"p"
  | .citation => some t!"blockquote"
  | .list (some d) => some d.tag
  | k => k.tag

/-- The element a node is. -/
def outer : Klass → Option Text
  | .blockQuote | .citation => some t!"blockquote"
  | .list (some d) => some d.tag
  | k => k.tag

def classes : List Klass :=
  [.element, .macro, .root, .line, .span, .br, .bold, .italic, .underline, .strike, .sub, .sup, .monospace,
   .tableCell, .tableRow, .tableHeader, .itemize, .definitionHeader, .anchor, .box, .heading, .h1, .h2, .h3,
   .definitionBody, .div, .img, .definitionList, .table, .blockQuote, .citationContent, .citation,
   .list none, .list (some .star), .list (some .sign), .list (some .numeric), .list (some .alpha), .list (some .roman), .text]

theorem mem_classes (k : Klass) : k ∈ classes := by
  cases k
  case list d =>
    rcases d with _ | d
    · decide
    · cases d <;> decide
  all_goals decide

theorem fine_tag (c k : Klass) (p t : Text) (h : fine c k = true) (hc : around c = some p) (hk : outer k = some t) : t ∈ wide p := by
  have : ∀ c ∈ classes, ∀ k ∈ classes, (!fine c k || match around c, outer k with
      | some p, some t => decide (t ∈ wide p)
      | _, _ => true) = true := by decide +kernel
  have h0 := this c (mem_classes c) k (mem_classes k)
  rw [h, hc, hk] at h0
  simpa using h0

theorem fine_pcdata (c : Klass) (p : Text) (h : fine c .text = true) (hc : around c = some p) : pcdata ∈ wide p := by
  have : ∀ c ∈ classes, (!fine c .text || match around c with
      | some p => decide (pcdata ∈ wide p)
      | _ => true) = true := by decide +kernel
  have h0 := this c (mem_classes c)
  rw [h, hc] at h0
  simpa using h0

theorem outer_anchor (k : Klass) (h : outer k = some t!"a") : k = .anchor := by
  have : ∀ k ∈ classes, (k = .anchor || decide (outer k ≠ some t!"a")) = true := by decide +kernel
  have h0 := this k (mem_classes k)
  simpa [h] using h0

/-- Nodes without children. -/
def leaf : Klass → Bool
  | .text | .element | .br | .img => true
  | _ => false

theorem leaf_none (c k : Klass) (h : leaf c = true) : fine c k = false := by
  have : ∀ c ∈ classes, ∀ k ∈ classes, (!leaf c || !fine c k) = true := by decide +kernel
  have h0 := this c (mem_classes c) k (mem_classes k)
  rw [h] at h0
  simpa using h0

/-- Classes of which no node becomes a child. -/
def never : Klass → Bool
  | .root | .macro | .line | .box | .heading => true
  | _ => false

theorem never_fine (c k : Klass) (h : never k = true) : fine c k = false := by
  have : ∀ c ∈ classes, ∀ k ∈ classes, (!never k || !fine c k) = true := by decide +kernel
  have h0 := this c (mem_classes c) k (mem_classes k)
  rw [h] at h0
  simpa using h0

theorem element_root (c : Klass) (h : fine c .element = true) : c = .root := by
  have : ∀ c ∈ classes, (c = .root || !fine c .element) = true := by decide +kernel
  have h0 := this c (mem_classes c)
  rw [h] at h0
  simpa using h0

/-- How the other nodes are written. -/
theorem node_toks {n : Node} {a c : List Tok} (h1 : n.opens = .ok a) (h2 : n.closes = .ok c) (hl : leaf n.klass = false) (hn : never n.klass = false) :
    (n.klass = .blockQuote ∧ a = [.opening t!"blockquote", .opening t!"p"] ∧ c = [.closing t!"p", .closing t!"blockquote"]) ∨
      ∃ t, outer n.klass = some t ∧ around n.klass = some t ∧ a = [.opening t] ∧ c = [.closing t] := by
  obtain ⟨k, par, kids, txt⟩ := n
  unfold Node.opens at h1
  unfold Node.closes at h2
  dsimp only at *
  cases k
  case list d =>
    cases d with
    | none => cases h1
    | some d => cases h1; cases h2; exact Or.inr ⟨d.tag, rfl, rfl, rfl, rfl⟩
  all_goals first
    | exact absurd hl.symm Bool.false_ne_true
    | exact absurd hn.symm Bool.false_ne_true
    | (cases h1; cases h2; exact Or.inl ⟨rfl, rfl, rfl⟩)
    | (cases h1; cases h2; exact Or.inr ⟨_, rfl, rfl, rfl, rfl⟩)

/-! ### Nodes -/

theorem in_all {may : Text → List Text} {st : List Text} {f : Nat → Py (List Tok)} (xs : List Nat)
    (h : ∀ j ∈ xs, ∀ b, f j = .ok b → In may st b) {b : List Tok} (hb : acceptAll f xs = .ok b) : In may st b := by
  induction xs generalizing b with
  | nil => cases hb; exact in_nil _ _
  | cons x xs ih =>
    unfold acceptAll at hb
    split at hb
    · cases hb
    · next a ha =>
      split at hb
      · cases hb
      · next c hc =>
        cases hb
        exact in_append (h x (by simp) a ha) (ih (fun j hj => h j (by simp [hj])) hc)

theorem opens_node {w : Wiki} (hb : Beside w) {i : Nat} {n : Node} {a : List Tok} (h : w.opens i n = .ok a) : n.opens = .ok a := by
  unfold Wiki.opens at h
  split at h
  · cases h
  · next hx => exact absurd (extra_mem hx) (hb.toc i)
  · exact h

theorem closes_node {w : Wiki} (hb : Beside w) {env : Env} {i : Nat} {n : Node} (hi : w.doc.nodes[i]? = some n) (hn : n.klass ≠ .element) {a : List Tok}
    (h : w.closes env i n = .ok a) : n.closes = .ok a := by
  unfold Wiki.closes at h
  split at h
  · next hx =>
    obtain ⟨m, h1, h2⟩ := hb.block i _ _ (extra_mem hx)
    rw [hi] at h1
    cases h1
    exact absurd h2 hn
  · exact h

theorem children_in {w : Wiki} {l : List (Nat × Klass)} (hs : State w l) (env : Env) (hr : ∀ s, Balanced (env.rst s) ∧ RightPage (env.rst s) = true)
    (fuel i : Nat) (n : Node) (p : Text) (ps : List Text) (hi : w.doc.nodes[i]? = some n) (hp : around n.klass = some p) (hroot : n.klass = .root → ps = [])
    (ha : ∀ l, Way w.doc (some i) l → t!"a" ∈ p :: ps → .anchor ∈ cls l) (j : Nat) (hj : j ∈ n.children) (b : List Tok)
    (hb : w.accept env fuel j = .ok b) : In wide (p :: ps) b := by
  induction fuel generalizing i n p ps j b with
  | zero => cases hb
  | succ fuel ih =>
    unfold Wiki.accept at hb
    split at hb
    · cases hb
    · next m hm =>
      simp only [bind, Except.bind, pure, Except.pure] at hb
      split at hb
      · cases hb
      · next x hx =>
        split at hb
        · cases hb
        · next y hy =>
          split at hb
          · cases hb
          · next z hz =>
            cases hb
            obtain ⟨hfine, a', r', hway⟩ := hs.doc.nest.kids i j n m hi hm hj
            obtain ⟨l', hl', hfit⟩ := hs.doc.nest.ways j m hm
            have hl := way_unique hl' hway
            subst hl
            have hwi := (way_suffix hway rfl).1
            have hnever : never m.klass = false := by
              by_cases h : never m.klass = true
              · rw [never_fine _ _ h] at hfine; cases hfine
              · simpa using h
            have hxn := opens_node hs.beside hx
            by_cases hleaf : leaf m.klass = true
            · have hkids : m.children = [] := by
                cases hc : m.children with
                | nil => rfl
                | cons q qs =>
                  exfalso
                  have hq : q ∈ m.children := by rw [hc]; simp
                  have hlt := hs.doc.nest.lt j m hm q hq
                  have := (hs.doc.nest.kids j q m _ hm (List.getElem?_eq_getElem hlt) hq).1
                  rw [leaf_none _ _ hleaf] at this
                  cases this
              rw [hkids] at hy
              cases hy
              by_cases hel : m.klass = .element
              · have hc := element_root n.klass (hel ▸ hfine)
                have hps := hroot hc
                subst hps
                rw [hc] at hp
                cases hp
                have hx0 : x = [] := by
                  unfold Node.opens at hxn
                  rw [hel] at hxn
                  cases hxn
                  rfl
                subst hx0
                obtain ⟨buf, rst, hex⟩ := hs.beside.element j m hm hel
                unfold Wiki.closes at hz
                rw [hex] at hz
                dsimp only at hz
                rw [List.nil_append, List.nil_append]
                split at hz
                · cases hz
                  exact in_balanced (may := inside) (fun p t h => List.mem_append_left _ h) (hr buf).1 (hr buf).2
                · cases hz
                  exact in_element (t := t!"pre") (b := [.text (escape buf)]) (by decide) (fun h => by cases h) (in_text (by decide) _)
              · have hzn := closes_node hs.beside hm hel hz
                clear hx hz
                generalize hk : m.klass = k at *
                cases k
                all_goals first
                  | exact absurd hleaf Bool.false_ne_true
                  | exact absurd rfl hel
                  | skip
                · have : x = [.single t!"br"] ∧ z = [] := by
                    unfold Node.opens at hxn
                    unfold Node.closes at hzn
                    rw [hk] at hxn hzn
                    cases hxn; cases hzn
                    exact ⟨rfl, rfl⟩
                  rw [this.1, this.2]
                  exact in_single (fine_tag _ .br _ _ hfine hp rfl)
                · have : x = [.single t!"img"] ∧ z = [] := by
                    unfold Node.opens at hxn
                    unfold Node.closes at hzn
                    rw [hk] at hxn hzn
                    cases hxn; cases hzn
                    exact ⟨rfl, rfl⟩
                  rw [this.1, this.2]
                  exact in_single (fine_tag _ .img _ _ hfine hp rfl)
                · have : x = [.text m.text] ∧ z = [.text ['\n']] := by
                    unfold Node.opens at hxn
                    unfold Node.closes at hzn
                    rw [hk] at hxn hzn
                    cases hxn; cases hzn
                    exact ⟨rfl, rfl⟩
                  rw [this.1, this.2]
                  have hpc := fine_pcdata _ _ hfine hp
                  exact in_append (in_text hpc _) (in_text hpc _)
            · have hleaf : leaf m.klass = false := by simpa using hleaf
              have hel : m.klass ≠ .element := by
                intro h
                rw [h] at hleaf
                cases hleaf
              have hzn := closes_node hs.beside hm hel hz
              have hmroot : m.klass ≠ .root := by
                intro h
                rw [h] at hnever
                cases hnever
              have hin : ∀ t ts, around m.klass = some t → (t!"a" ∈ t :: ts → m.klass = .anchor ∨ t!"a" ∈ p :: ps) → In wide (t :: ts) y := by
                intro t ts ht hta
                refine in_all m.children (fun q hq b' hb' => ih j m t ts hm ht (fun h => absurd h hmroot) ?_ q hq b' hb') hy
                intro l2 hl2 hmem
                have : l2 = (j, m.klass) :: (a' ++ (i, n.klass) :: r') := way_unique hl2 (.some j m _ hm hway)
                subst this
                rcases hta hmem with h | h
                · rw [h]; simp [cls]
                · have := ha _ hwi h
                  simp only [cls, List.map_cons, List.map_append, List.mem_cons, List.mem_append] at this ⊢
                  exact Or.inr (Or.inr this)
              have hanchor : m.klass = .anchor → t!"a" ∉ p :: ps := by
                intro h hmem
                rw [h] at hfit
                have h1 := hfit.2.2.1
                have := ha _ hwi hmem
                apply h1
                simp only [cls, List.map_cons, List.map_append, List.mem_cons, List.mem_append] at this ⊢
                exact Or.inr this
              rcases node_toks hxn hzn hleaf hnever with ⟨h1, rfl, rfl⟩ | ⟨t, h1, h2, rfl, rfl⟩
              · have hbq := fine_tag n.klass m.klass p t!"blockquote" hfine hp (by rw [h1]; rfl)
                have h3 := hin t!"p" (t!"blockquote" :: p :: ps) (by rw [h1]; rfl) (by
                  intro h
                  refine Or.inr ?_
                  rcases List.mem_cons.1 h with h | h
                  · cases h
                  · rcases List.mem_cons.1 h with h | h
                    · cases h
                    · exact h)
                have := in_element (t := t!"blockquote") hbq (fun h => by cases h)
                  (in_element (t := t!"p") (b := y) (p := t!"blockquote") (ps := p :: ps) (by decide) (fun h => by cases h) h3)
                simpa using this
              · have h3 := hin t (p :: ps) h2 (by
                  intro h
                  rcases List.mem_cons.1 h with h | h
                  · exact Or.inl (outer_anchor _ (h ▸ h1))
                  · exact Or.inr h)
                have := in_element (fine_tag n.klass m.klass p t hfine hp h1) (fun h => hanchor (outer_anchor _ (h ▸ h1))) h3
                simpa using this

theorem format_wide (env : Env) (hr : ∀ s, Balanced (env.rst s) ∧ RightPage (env.rst s) = true) (text : Text)
    (hc : ¬ Contains text t!"[[TableOfContent") (b : List Tok) (h : format env text = .ok b) : Obeys wide [t!"body"] b = true := by
  unfold format at h
  simp only [bind, Except.bind] at h
  split at h
  · cases h
  · next w hw =>
    obtain ⟨l, hs, _⟩ := parse_rests hc hw
    obtain ⟨n, h1, h2, h3⟩ := hs.doc.nest.root
    unfold Wiki.html Wiki.accept at h
    rw [h1] at h
    simp only [bind, Except.bind, pure, Except.pure] at h
    split at h
    · cases h
    · next x hx =>
      split at h
      · cases h
      · next y hy =>
        split at h
        · cases h
        · next z hz =>
          cases h
          have hx0 : x = [] := by
            have := opens_node hs.beside hx
            unfold Node.opens at this
            rw [h2] at this
            cases this
            rfl
          have hz0 : z = [] := by
            have := closes_node hs.beside h1 (by rw [h2]; decide) hz
            unfold Node.closes at this
            rw [h2] at this
            cases this
            rfl
          subst hx0 hz0
          rw [List.nil_append, List.append_nil]
          refine in_obeys (in_all n.children (fun j hj b' hb' => ?_) hy)
          exact children_in hs env hr _ 0 n t!"body" [] h1 (by rw [h2]; rfl) (fun _ => rfl) (fun l _ h => by simp at h) j hj b' hb'

/-! ### Documents -/

open Bglib.Spec.Document

theorem in_words {p : Text} {ps : List Text} (h : pcdata ∈ inside p) (t : Text) : In inside (p :: ps) (words t) := by
  unfold words
  split
  · exact in_nil _ _
  · exact in_append (a := [_]) (in_text h _) (in_text h _)

theorem in_flow {p : Text} {ps : List Text} (h : pcdata ∈ inside p) (hi : ∀ t ∈ Nesting.inline, t ∈ inside p) (l : Line) (t : Text) :
    In inside (p :: ps) (flow t l) := by
  induction l generalizing t with
  | nil => exact in_words h t
  | cons x l ih =>
    cases x with
    | plain u => exact ih _
    | styled s u =>
      refine in_append (in_append (in_words h t) ?_) (ih [])
      refine in_element (hi _ ?_) (fun h => ?_) (in_words ?_ u)
      · cases s <;> decide
      · cases s <;> cases h
      · cases s <;> decide

theorem mark_tag (m : Mark) : m.tag = t!"ul" ∨ m.tag = t!"ol" := by
  cases m <;> first
    | exact Or.inl rfl
    | exact Or.inr rfl

theorem in_items (items : Items) (ps : List Text) : (∀ t ∈ [t!"ul", t!"ol"], In inside (t :: ps) items.html) := by
  induction items generalizing ps with
  | none => exact fun _ _ => in_nil _ _
  | item m l ls below next ihb ihn =>
    intro t ht
    refine in_append (in_element (t := t!"li") ?_ (fun h => by cases h) ?_) (ihn ps t ht)
    · simp only [List.mem_cons, List.not_mem_nil, or_false] at ht
      rcases ht with rfl | rfl <;> decide
    · refine in_append (in_flow (by decide) (by decide) _ _) ?_
      cases below with
      | none => exact in_nil _ _
      | item m' l' ls' b' n' =>
        refine in_element (t := m'.tag) ?_ ?_ (ihb _ _ ?_)
        · rcases mark_tag m' with h | h <;> rw [h] <;> decide
        · rcases mark_tag m' with h | h <;> rw [h] <;> (intro h; cases h)
        · rcases mark_tag m' with h | h <;> rw [h] <;> decide

theorem in_parts (parts : List Part) (l : Line) (ps : List Text) : In inside (t!"div" :: ps) (partsHtml l parts) := by
  induction parts generalizing l with
  | nil => exact in_flow (by decide) (by decide) _ _
  | cons x parts ih =>
    cases x with
    | line l' => exact ih _
    | heading n l' =>
      refine in_append (in_append (in_flow (by decide) (by decide) _ _) (in_element ?_ ?_ (in_flow ?_ ?_ _ _))) (ih [])
      · revert n; decide
      · intro h; cases h
      · revert n; decide
      · revert n; decide

theorem in_cited (n : Nat) (ps : List Text) (b : List Tok) (h : ∀ q, In inside (t!"blockquote" :: q) b) (p : Text) (hp : t!"blockquote" ∈ inside p) (k : Nat) :
    In inside (p :: ps) ((List.range' k (n + 1)).foldr (fun _ => element t!"blockquote") b) := by
  induction n generalizing p ps k with
  | zero => exact in_element hp (fun h => by cases h) (h _)
  | succ n ih =>
    rw [List.range'_succ, List.foldr_cons]
    exact in_element hp (fun h => by cases h) (ih _ _ (by decide) _)

theorem in_block (b : Block) : In inside [t!"body"] b.html := by
  cases b with
  | text parts => exact in_element (by decide) (fun h => by cases h) (in_parts _ _ _)
  | items l =>
    refine in_element (t := t!"div") (by decide) (fun h => by cases h) ?_
    cases l with
    | none => exact in_nil _ _
    | item m l ls b n =>
      refine in_element (t := m.tag) ?_ ?_ (in_items _ _ _ ?_)
      · rcases mark_tag m with h | h <;> rw [h] <;> decide
      · rcases mark_tag m with h | h <;> rw [h] <;> (intro h; cases h)
      · rcases mark_tag m with h | h <;> rw [h] <;> decide
  | quote ls =>
    exact in_element (t := t!"div") (by decide) (fun h => by cases h) (in_element (t := t!"blockquote") (by decide) (fun h => by cases h)
      (in_element (t := t!"p") (by decide) (fun h => by cases h) (in_flow (by decide) (by decide) _ _)))
  | cited n ls =>
    refine in_element (t := t!"div") (by decide) (fun h => by cases h) ?_
    rw [List.range_eq_range']
    exact in_cited n _ _ (fun q => in_element (t := t!"p") (by decide) (fun h => by cases h) (in_flow (by decide) (by decide) _ _)) _ (by decide) 0
  | table rows =>
    refine in_element (t := t!"div") (by decide) (fun h => by cases h) (in_element (t := t!"table") (by decide) (fun h => by cases h) ?_)
    exact in_flatMap _ fun r _ => in_element (t := t!"tr") (by decide) (fun h => by cases h)
      (in_flatMap _ fun l _ => in_element (t := t!"td") (by decide) (fun h => by cases h) (in_flow (by decide) (by decide) _ _))
  | terms l =>
    refine in_element (t := t!"div") (by decide) (fun h => by cases h) (in_element (t := t!"dl") (by decide) (fun h => by cases h) ?_)
    exact in_flatMap _ fun x _ => in_append (in_element (t := t!"dt") (by decide) (fun h => by cases h) (in_words (by decide) _))
      (in_element (t := t!"dd") (by decide) (fun h => by cases h) (in_flow (by decide) (by decide) _ _))
  | code ls =>
    exact in_append (in_element (t := t!"div") (b := []) (by decide) (fun h => by cases h) (in_nil _ _))
      (in_element (t := t!"pre") (b := [.text _]) (by decide) (fun h => by cases h) (in_text (by decide) _))

theorem html_right (blocks : List Block) : RightPage (html blocks) = true :=
  in_obeys (in_flatMap blocks fun b _ => in_block b)

end Bglib.Nesting
