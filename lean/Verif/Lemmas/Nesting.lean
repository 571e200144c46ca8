import Verif.Lemmas.WikiParse
import Verif.Lemmas.WikiFormatter
import Verif.Spec.Nesting
/-
What a node of a document made by the wiki formatter can be in.

A node is entered below the nodes on the way from the current node to the root, and becomes a child of the first of them that
takes it.  `Fits k l` says on which ways `l` nodes of class `k` are entered, `fine c k` of which classes `c` they become children.
-/
namespace Bglib.Nesting
open Bglib Bglib.Spec Bglib.Doc

/-! ### Ways to the root -/

inductive Way (e : Editor) : Option Nat → List (Nat × Klass) → Prop where
  | none : Way e none []
  | some (i : Nat) (n : Node) (l : List (Nat × Klass)) : e.nodes[i]? = some n → Way e n.parent l → Way e (some i) ((i, n.klass) :: l)

theorem way_unique {e : Editor} {s : Option Nat} {l l' : List (Nat × Klass)} (h : Way e s l) (h' : Way e s l') : l = l' := by
  induction h generalizing l' with
  | none => cases h'; rfl
  | some i n l hn _ ih =>
    cases h' with
    | some _ n' l'' hn' h'' =>
      rw [hn] at hn'
      cases hn'
      rw [ih h'']

/-- Nodes keep their classes and parents. -/
def Grows (e e' : Editor) : Prop :=
  ∀ (i : Nat) (n : Node), e.nodes[i]? = some n → ∃ n', e'.nodes[i]? = some n' ∧ n'.klass = n.klass ∧ n'.parent = n.parent

theorem grows_refl {e e' : Editor} (h : e'.nodes = e.nodes) : Grows e e' := fun i n hn => ⟨n, by rw [h]; exact hn, rfl, rfl⟩

theorem grows_trans {a b c : Editor} (h1 : Grows a b) (h2 : Grows b c) : Grows a c := by
  intro i n hn
  obtain ⟨n', a1, a2, a3⟩ := h1 i n hn
  obtain ⟨n'', b1, b2, b3⟩ := h2 i n' a1
  exact ⟨n'', b1, b2.trans a2, b3.trans a3⟩

theorem way_grows {e e' : Editor} (g : Grows e e') {s : Option Nat} {l : List (Nat × Klass)} (h : Way e s l) : Way e' s l := by
  induction h with
  | none => exact .none
  | some i n l hn _ ih =>
    obtain ⟨n', a1, a2, a3⟩ := g i n hn
    rw [← a2]
    refine .some i n' l a1 ?_
    rw [a3]
    exact ih

theorem grows_push (nodes : List Node) (cur cur' : Option Nat) (c : Nat) (x : Node) :
    Grows ⟨nodes, cur⟩ ⟨nodes.modify c (fun n => { n with children := n.children ++ [nodes.length] }) ++ [x], cur'⟩ := by
  intro i n hn
  refine ⟨_, (modify_get _ _ _ _ _ _).2 (Or.inl ⟨n, hn, rfl⟩), ?_, ?_⟩ <;> split <;> rfl

theorem grows_text (nodes : List Node) (cur cur' : Option Nat) (c : Nat) (t : Text) :
    Grows ⟨nodes, cur⟩ ⟨nodes.modify c (fun n => { n with text := n.text ++ t }), cur'⟩ := by
  intro i n hn
  refine ⟨_, (modify_get' _ _ _ _ _).2 ⟨n, hn, rfl⟩, ?_, ?_⟩ <;> split <;> rfl

/-- The way up from a node that is on a way. -/
theorem way_suffix {e : Editor} {s : Option Nat} {l : List (Nat × Klass)} (h : Way e s l) {a : List (Nat × Klass)} {i : Nat} {k : Klass}
    {r : List (Nat × Klass)} (hl : l = a ++ (i, k) :: r) : Way e (some i) ((i, k) :: r) ∧ ∃ n, e.nodes[i]? = some n ∧ n.klass = k ∧ Way e n.parent r := by
  induction h generalizing a with
  | none => cases a <;> cases hl
  | some j n l hn hw ih =>
    cases a with
    | nil =>
      cases hl
      exact ⟨.some _ n _ hn hw, n, hn, rfl, hw⟩
    | cons x a =>
      cases hl
      exact ih rfl

/-- Where climbing ends. -/
theorem climb_way {e : Editor} {s : Option Nat} {l : List (Nat × Klass)} (h : Way e s l) (g : Klass → Bool) (fuel : Nat) (r : Option Nat)
    (hr : e.climb (fun n => g n.klass) fuel s = .ok r) : r = (l.find? fun x => g x.2).map (·.1) := by
  induction h generalizing fuel with
  | none =>
    cases fuel <;> (simp [Editor.climb] at hr; rw [← hr]; rfl)
  | some i n l hn _ ih =>
    cases fuel with
    | zero => simp [Editor.climb] at hr
    | succ fuel =>
      unfold Editor.climb at hr
      rw [hn] at hr
      dsimp only at hr
      by_cases hg : g n.klass = true
      · rw [if_pos hg] at hr
        cases hr
        rw [List.find?_cons_of_pos (by exact hg)]
        rfl
      · rw [if_neg hg] at hr
        rw [List.find?_cons_of_neg (by exact hg)]
        exact ih fuel hr

/-- A way after leaving. -/
def after (g : Klass → Bool) : List (Nat × Klass) → Option (List (Nat × Klass))
  | [] => none
  | x :: l => if g x.2 then some l else after g l

theorem after_some {g : Klass → Bool} {l r : List (Nat × Klass)} (h : after g l = some r) :
    ∃ a i k, l = a ++ (i, k) :: r ∧ g k = true ∧ ∀ x ∈ a, g x.2 = false := by
  induction l with
  | nil => cases h
  | cons x l ih =>
    unfold after at h
    split at h
    · next hg =>
      cases h
      exact ⟨[], x.1, x.2, rfl, hg, by simp⟩
    · next hg =>
      obtain ⟨a, i, k, h1, h2, h3⟩ := ih h
      refine ⟨x :: a, i, k, by rw [h1]; rfl, h2, ?_⟩
      intro y hy
      rcases List.mem_cons.1 hy with rfl | hy
      · simpa using hg
      · exact h3 y hy

theorem find_split {g : Klass → Bool} {l : List (Nat × Klass)} {x : Nat × Klass} (h : l.find? (fun x => g x.2) = some x) :
    ∃ a r, l = a ++ x :: r ∧ g x.2 = true ∧ (∀ y ∈ a, g y.2 = false) ∧ after g l = some r := by
  induction l with
  | nil => cases h
  | cons y l ih =>
    by_cases hg : g y.2 = true
    · rw [List.find?_cons_of_pos (by exact hg)] at h
      cases h
      exact ⟨[], l, rfl, hg, by simp, by simp [after, hg]⟩
    · rw [List.find?_cons_of_neg (by exact hg)] at h
      obtain ⟨a, r, h1, h2, h3, h4⟩ := ih h
      refine ⟨y :: a, r, by rw [h1]; rfl, h2, ?_, by simp [after, hg, h4]⟩
      intro z hz
      rcases List.mem_cons.1 hz with rfl | hz
      · simpa using hg
      · exact h3 z hz

theorem find_none {g : Klass → Bool} {l : List (Nat × Klass)} (h : l.find? (fun x => g x.2) = none) :
    after g l = none ∧ ∀ x ∈ l, g x.2 = false := by
  induction l with
  | nil => exact ⟨rfl, by simp⟩
  | cons y l ih =>
    by_cases hg : g y.2 = true
    · rw [List.find?_cons_of_pos (by exact hg)] at h
      cases h
    · rw [List.find?_cons_of_neg (by exact hg)] at h
      obtain ⟨h1, h2⟩ := ih h
      refine ⟨by simp [after, hg, h1], ?_⟩
      intro z hz
      rcases List.mem_cons.1 hz with rfl | hz
      · simpa using hg
      · exact h2 z hz

/-! ### Classes -/

/-- Classes that can have text and parts of a line in them. -/
def usual : Klass → Bool
  | .list _ | .tableRow | .element | .br | .img | .root | .macro | .text | .line | .box | .heading => false
  | _ => true

def HeadOk : List Klass → Prop
  | [] => False
  | k :: _ => usual k = true

def Base (l : List Klass) : Prop := .div ∈ l ∧ .anchor ∉ l ∧ .tableHeader ∉ l

/-- Between two marks. -/
def Top (l : List Klass) : Prop := HeadOk l ∧ Base l

def ListHead (l : List Klass) : Prop := ∃ d r, l = .list d :: r

/-- In a list that has been made for the lists in it. -/
def StarHead (l : List Klass) : Prop := ∃ r, l = .list (some .star) :: r

def RowHead (l : List Klass) : Prop := ∃ r, l = .tableRow :: r

/-- The ways on which nodes are entered. -/
def Fits : Klass → List Klass → Prop
  | .root, l => l = []
  | .div, l => l = [.root]
  | .list _, l => Base l ∧ (HeadOk l ∨ StarHead l)
  | .itemize, l => Base l ∧ ListHead l
  | .tableCell, l => Base l ∧ RowHead l
  | .tableHeader, l => Base l ∧ RowHead l
  | .tableRow, l => Top l ∧ .table ∈ l
  | .definitionHeader, l => Top l ∧ .definitionList ∈ l
  | .citationContent, l => Top l ∧ .citation ∈ l ∧ .citationContent ∉ l
  | .text, l => HeadOk l
  | .span, l => HeadOk l ∧ .div ∈ l
  | .img, l => (∃ r, l = .span :: r) ∧ .div ∈ l
  | .macro, _ => False
  | .line, _ => False
  | .box, _ => False
  | .heading, _ => False
  | _, l => Top l

def AllFit : List Klass → Prop
  | [] => True
  | k :: l => Fits k l ∧ AllFit l

/-- Parts of a line. -/
def part : Klass → Bool
  | .span | .br | .bold | .italic | .underline | .strike | .sub | .sup | .monospace | .anchor | .img => true
  | _ => false

/-- What is in a node beside text and parts of a line. -/
def blocks : Klass → Klass → Bool
  | .div, k => match k with
    | .h1 | .h2 | .h3 | .list _ | .definitionList | .table | .blockQuote | .citation | .definitionBody => true
    | _ => false
  | .itemize, k => match k with
    | .list _ | .table | .tableRow => true
    | _ => false
  | .definitionBody, .list _ => true
  | .definitionList, k => match k with
    | .definitionHeader | .definitionBody | .list _ => true
    | _ => false
  | .table, .tableRow => true
  | .span, .img => true
  | .citationContent, .citation => true
  | .citation, k => match k with
    | .citation | .citationContent => true
    | _ => false
  | _, _ => false

/-- What becomes a child of what. -/
def fine (c k : Klass) : Bool :=
  match c with
  | .root => match k with
    | .div | .element => true
    | _ => false
  | .list d => match k with
    | .list _ => d = some .star
    | .itemize => true
    | _ => false
  | .tableRow => match k with
    | .tableCell | .tableHeader => true
    | _ => false
  | c => usual c && (k = .text || (part k && k ≠ .img && !(c = .anchor && k = .anchor)) || blocks c k)

theorem allFit_of {e : Editor} (hp : ∀ (i : Nat) (n : Node), e.nodes[i]? = some n → ∃ l, Way e n.parent l ∧ Fits n.klass (l.map (·.2)))
    {s : Option Nat} {l : List (Nat × Klass)} (h : Way e s l) : AllFit (l.map (·.2)) := by
  induction h with
  | none => trivial
  | some i n l hn hw ih =>
    refine ⟨?_, ih⟩
    obtain ⟨l', h1, h2⟩ := hp i n hn
    rw [way_unique hw h1]
    exact h2

theorem allFit_append {a b : List Klass} (h : AllFit (a ++ b)) : AllFit b := by
  induction a with
  | nil => exact h
  | cons x a ih => exact ih h.2

/-- All that is not at the end stands before the box around everything. -/
theorem fits_div {k : Klass} {l : List Klass} (h : Fits k l) (h1 : k ≠ .root) (h2 : k ≠ .div) (h3 : k ≠ .text) : .div ∈ l := by
  cases k <;> first
    | exact absurd rfl h1
    | exact absurd rfl h2
    | exact absurd rfl h3
    | exact h.2.1
    | exact h.1.1
    | exact h.2
    | exact h.1.2.1
    | exact h.elim

theorem allFit_end {a r : List Klass} {k : Klass} (h : AllFit (a ++ k :: r)) : (k = .root → r = []) ∧ (k = .div → r = [.root]) := by
  have h' := (allFit_append h).1
  refine ⟨?_, ?_⟩
  · rintro rfl
    exact h'
  · rintro rfl
    exact h'

theorem first_of {L a r : List Klass} {c d : Klass} (h : AllFit L) (hL : L = a ++ c :: r) (hd : d ∈ L) (hdr : d ≠ .root)
    (ha : d ∉ a) : c ≠ .root ∧ (c = .div → d = .div) := by
  subst hL
  refine ⟨?_, ?_⟩
  · intro hc
    have := (allFit_end h).1 hc
    subst hc this
    simp only [List.mem_append, List.mem_cons, List.not_mem_nil, or_false] at hd
    rcases hd with hd | hd
    · exact ha hd
    · exact hdr hd
  · intro hc
    have := (allFit_end h).2 hc
    subst hc this
    simp only [List.mem_append, List.mem_cons, List.not_mem_nil, or_false] at hd
    rcases hd with hd | hd | hd
    · exact absurd hd ha
    · exact hd
    · exact absurd hd hdr

theorem usual_accepts (h k : Klass) (hu : usual h = true) (hk : part k = true) : h.accepts k = true := by
  cases h
  all_goals first
    | exact absurd hu Bool.false_ne_true
    | (cases k
       all_goals first
         | exact absurd hk Bool.false_ne_true
         | rfl)

theorem usual_fine (h k : Klass) (hu : usual h = true) (hk : part k = true) (ha : h = .anchor → k ≠ .anchor)
    (hi : k = .img → h = .span) : fine h k = true := by
  cases h
  all_goals first
    | exact absurd hu Bool.false_ne_true
    | (cases k
       all_goals first
         | exact absurd hk Bool.false_ne_true
         | exact absurd rfl (ha rfl)
         | rfl
         | exact absurd (hi rfl) (by decide))

/-- Nodes that are not parts of a line: what takes them, if it is not the root. -/
theorem block_fine (c k : Klass) (h : c.accepts k = true) (hc : c ≠ .root) (hk : part k = false) (h1 : k ≠ .div) (h2 : k ≠ .macro)
    (h3 : k ≠ .heading) (h4 : k ≠ .box) (h5 : k = .itemize → ∃ d, c = .list d) (h6 : k = .tableCell ∨ k = .tableHeader → c = .tableRow)
    (h7 : k = .citationContent → c ≠ .citationContent)
    (h8 : ∀ d e, k = .list d → c = .list e → e = some .star) : fine c k = true := by
  cases k
  all_goals first
    | exact absurd rfl h1
    | exact absurd rfl h2
    | exact absurd rfl h3
    | exact absurd rfl h4
    | exact absurd hk.symm Bool.false_ne_true
    | skip
  case itemize => obtain ⟨d, rfl⟩ := h5 rfl; rfl
  case tableCell => rw [h6 (Or.inl rfl)]; rfl
  case tableHeader => rw [h6 (Or.inr rfl)]; rfl
  all_goals
    cases c
    all_goals first
      | exact absurd rfl hc
      | rfl
      | exact absurd rfl (h7 rfl)
      | exact absurd h Bool.false_ne_true
      | exact decide_eq_true (h8 _ _ rfl rfl)

/-- What is entered in a list. -/
theorem below_list {k : Klass} {e : Option Design} {l : List Klass} (h : Fits k (.list e :: l)) : k = .itemize ∨ ∃ d, k = .list d := by
  cases k
  case itemize => exact Or.inl rfl
  case list d => exact Or.inr ⟨d, rfl⟩
  case img => obtain ⟨r, h⟩ := h.1; cases h
  all_goals first
    | exact h.elim
    | exact absurd h.1 Bool.false_ne_true
    | exact absurd h.1.1 Bool.false_ne_true
    | exact absurd h Bool.false_ne_true
    | (obtain ⟨r, h⟩ := h.2; cases h)
    | cases h

theorem fine_of {L a r : List Klass} {c k : Klass} (hL : AllFit L) (hk : Fits k L) (he : L = a ++ c :: r) (hc : c.accepts k = true)
    (ha : ∀ x ∈ a, x.accepts k = false) (ht : k ≠ .text) : fine c k = true := by
  have head : ∀ h l, L = h :: l → h.accepts k = true → c = h := by
    intro h l hl hh
    cases a with
    | nil => rw [he] at hl; cases hl; rfl
    | cons x a =>
      rw [he] at hl
      cases hl
      rw [ha h (by simp)] at hh
      cases hh
  have before : ∀ d ∈ L, d.accepts k = true → d ≠ .root → c ≠ .root ∧ (c = .div → d = .div) := by
    intro d hd hda hdr
    refine first_of hL he hd hdr ?_
    intro hm
    rw [ha d hm] at hda
    cases hda
  by_cases hp : part k = true
  · have hh : HeadOk L := by
      cases k <;> first
        | exact absurd hp Bool.false_ne_true
        | exact hk.1
        | (obtain ⟨r', h⟩ := hk.1; rw [h]; rfl)
    match L, hh, head with
    | h :: l, hh, head =>
      have hch := head h l rfl (usual_accepts h k hh hp)
      subst hch
      refine usual_fine c k hh hp ?_ ?_
      · rintro rfl rfl
        exact hk.2.2.1 (by simp)
      · rintro rfl
        obtain ⟨r', h⟩ := hk.1
        exact (List.cons.inj h).1
  · have hp' : part k = false := by simpa using hp
    have hbox : .div ∈ L → Klass.div.accepts k = true → c ≠ .root := fun h1 h2 => (before .div h1 h2 (by decide)).1
    cases k
    all_goals first
      | exact absurd rfl hp
      | exact absurd rfl ht
      | exact hk.elim
      | skip
    case root =>
      have : L = [] := hk
      rw [this] at he
      cases a <;> cases he
    case div =>
      have : L = [.root] := hk
      have := head _ _ this (by decide)
      rw [this]
      rfl
    case element =>
      by_cases hcr : c = .root
      · rw [hcr]; rfl
      · exact block_fine c _ hc hcr hp' (by decide) (by decide) (by decide) (by decide) (fun h => by cases h) (fun h => by rcases h with h | h <;> cases h)
          (fun h => by cases h) (fun _ _ h => by cases h)
    case itemize =>
      obtain ⟨d, r', h⟩ := hk.2
      have := head _ _ h rfl
      rw [this]
      rfl
    case tableCell =>
      obtain ⟨r', h⟩ := hk.2
      rw [head _ _ h rfl]
      rfl
    case tableHeader =>
      obtain ⟨r', h⟩ := hk.2
      rw [head _ _ h rfl]
      rfl
    case tableRow =>
      exact block_fine c _ hc (before .table hk.2 rfl (by decide)).1 hp' (by decide) (by decide) (by decide) (by decide) (fun h => by cases h)
        (fun h => by rcases h with h | h <;> cases h) (fun h => by cases h) (fun _ _ h => by cases h)
    case definitionHeader =>
      exact block_fine c _ hc (before .definitionList hk.2 rfl (by decide)).1 hp' (by decide) (by decide) (by decide) (by decide)
        (fun h => by cases h) (fun h => by rcases h with h | h <;> cases h) (fun h => by cases h) (fun _ _ h => by cases h)
    case citationContent =>
      refine block_fine c _ hc (before .citation hk.2.1 rfl (by decide)).1 hp' (by decide) (by decide) (by decide) (by decide)
        (fun h => by cases h) (fun h => by rcases h with h | h <;> cases h) (fun _ h => hk.2.2 ?_) (fun _ _ h => by cases h)
      rw [he, h]
      simp
    case list d =>
      refine block_fine c _ hc (hbox hk.1.1 rfl) hp' (by simp) (by simp) (by simp) (by simp)
        (fun h => by cases h) (fun h => by rcases h with h | h <;> cases h) (fun h => by cases h) ?_
      intro _ e _ hce
      subst hce
      rcases List.eq_nil_or_concat a with rfl | ⟨a', x, rfl⟩
      · rcases hk.2 with h | ⟨r', h⟩
        · rw [he] at h
          exact absurd h Bool.false_ne_true
        · rw [he] at h
          exact (Klass.list.inj (List.cons.inj h).1)
      · have hx := ha x (by simp)
        rw [he, List.concat_eq_append, List.append_assoc] at hL
        have hf := (allFit_append hL).1
        rcases below_list hf with rfl | ⟨d', rfl⟩
        · exact absurd hx.symm Bool.false_ne_true
        · exact absurd hx.symm Bool.false_ne_true
    all_goals
      exact block_fine c _ hc (hbox hk.2.1 rfl) hp' (by decide) (by decide) (by decide) (by decide)
        (fun h => by cases h) (fun h => by rcases h with h | h <;> cases h) (fun h => by cases h) (fun _ _ h => by cases h)

end Bglib.Nesting
