import Verif.Spec.Document
import Verif.Model.Wiki
/-
The editor as a stack of open elements, as long as every new node goes below the current one.
-/
namespace Bglib.Doc
open Spec.Document

/-- An open element: its class, what is known of it, what has been written in it, and the text behind that. -/
structure Frame where
  klass : Klass
  extra : Option Extra
  pre : List Tok
  tail : Text

def Frame.good (f : Frame) : Prop :=
  f.klass ≠ .text ∧ f.klass ≠ .list none ∧ (f.extra = none ∨ f.extra = some (.item true) ∨ ∃ l, f.extra = some (.attrs l))

def openToks (k : Klass) : List Tok := match (Node.mk k none [] []).opens with
  | .ok a => a
  | .error _ => []

def closeToks (k : Klass) : List Tok := match (Node.mk k none [] []).closes with
  | .ok a => a
  | .error _ => []

def Frame.inner (f : Frame) : List Tok := f.pre ++ words f.tail
def Frame.toks (f : Frame) : List Tok := openToks f.klass ++ f.inner ++ closeToks f.klass

theorem good_opens {w : Wiki} {f : Frame} (hf : f.good) {j : Nat} {n : Node} (hk : n.klass = f.klass) (hx : w.extra j = f.extra) :
    w.opens j n = .ok (openToks f.klass) := by
  obtain ⟨h1, h2, h3⟩ := hf
  have e : n.opens = .ok (openToks f.klass) := by
    obtain ⟨k, x, a, b⟩ := f
    obtain ⟨nk, p, ch, t⟩ := n
    simp only at hk h1 h2 ⊢
    subst hk
    cases nk <;> first | rfl | exact absurd rfl h1 | skip
    rename_i d
    cases d with
    | none => exact absurd rfl h2
    | some d => rfl
  rcases h3 with h3 | h3 | ⟨l, h3⟩ <;> simp only [Wiki.opens, hx, h3, e]

theorem good_closes {w : Wiki} {env : Env} {f : Frame} (hf : f.good) {j : Nat} {n : Node} (hk : n.klass = f.klass)
    (hx : w.extra j = f.extra) : w.closes env j n = .ok (closeToks f.klass) := by
  obtain ⟨h1, h2, h3⟩ := hf
  have e : n.closes = .ok (closeToks f.klass) := by
    obtain ⟨k, x, a, b⟩ := f
    obtain ⟨nk, p, ch, t⟩ := n
    simp only at hk h1 h2 ⊢
    subst hk
    cases nk <;> first | rfl | exact absurd rfl h1 | skip
    rename_i d
    cases d with
    | none => exact absurd rfl h2
    | some d => rfl
  rcases h3 with h3 | h3 | ⟨l, h3⟩ <;> simp only [Wiki.closes, hx, h3, e]

/-- The nodes `js` with all below them, numbered between `lo` and `hi`, are written as `t`. -/
inductive Emits (w : Wiki) (env : Env) (hi : Nat) : Nat → List Nat → List Tok → Prop where
  | nil (lo : Nat) : Emits w env hi lo [] []
  | cons (lo j : Nat) (js : List Nat) (n : Node) (a b c r : List Tok) (h1 : lo < j) (h2 : j < hi) (hn : w.doc.nodes[j]? = some n)
      (hx : w.extra j ≠ some .toc) (ho : w.opens j n = .ok a) (hc : w.closes env j n = .ok c)
      (hb : Emits w env hi j n.children b) (hr : Emits w env hi lo js r) : Emits w env hi lo (j :: js) (a ++ b ++ c ++ r)

variable {w w' : Wiki} {env : Env}

theorem emits_append {hi lo : Nat} {xs ys : List Nat} {a b : List Tok} (h1 : Emits w env hi lo xs a) (h2 : Emits w env hi lo ys b) :
    Emits w env hi lo (xs ++ ys) (a ++ b) := by
  induction h1 with
  | nil lo => exact h2
  | cons lo j js n a b c r k1 k2 hn hx ho hc hb hr _ ih =>
    rw [List.append_assoc, List.cons_append]
    exact .cons lo j _ n a b c _ k1 k2 hn hx ho hc hb (ih h2)

theorem emits_mono {hi hi' lo : Nat} {xs : List Nat} {a : List Tok} (h : Emits w env hi lo xs a) (hh : hi ≤ hi') :
    Emits w env hi' lo xs a := by
  induction h with
  | nil lo => exact .nil lo
  | cons lo j js n a b c r k1 k2 hn hx ho hc hb hr ihb ihr =>
    exact .cons lo j _ n a b c _ k1 (Nat.lt_of_lt_of_le k2 hh) hn hx ho hc ihb ihr

theorem emits_stable {hi lo : Nat} {xs : List Nat} {a : List Tok} (h : Emits w env hi lo xs a)
    (hs : ∀ j, lo < j → j < hi → w'.doc.nodes[j]? = w.doc.nodes[j]? ∧ w'.extra j = w.extra j) : Emits w' env hi lo xs a := by
  induction h with
  | nil lo => exact .nil lo
  | cons lo j js n a b c r k1 k2 hn hx ho hc hb hr ihb ihr =>
    obtain ⟨e1, e2⟩ := hs j k1 k2
    refine .cons lo j _ n a b c _ k1 k2 (e1.trans hn) (by rw [e2]; exact hx) ?_ ?_
      (ihb fun i h1 h2 => hs i (Nat.lt_trans k1 h1) h2) (ihr hs)
    · simp only [Wiki.opens, e2] at ho ⊢
      split at ho <;> simp_all
    · simp only [Wiki.closes, e2] at hc ⊢
      exact hc

theorem emits_accept {hi lo : Nat} {xs : List Nat} {a : List Tok} (h : Emits w env hi lo xs a) (fuel : Nat) (hf : hi ≤ fuel + lo) :
    acceptAll (w.accept env fuel) xs = .ok a := by
  induction h generalizing fuel with
  | nil lo => rfl
  | cons lo j js n a b c r k1 k2 hn hx ho hc hb hr ihb ihr =>
    cases fuel with
    | zero => omega
    | succ f =>
      have h1 : w.accept env (f + 1) j = .ok (a ++ b ++ c) := by
        simp only [Wiki.accept, hn, ho, ihb f (by omega), hc, bind, Except.bind, pure, Except.pure]
      simp only [acceptAll, h1, ihr (f + 1) hf]

/-- The children of the innermost open element. -/
def Kids (w : Wiki) (env : Env) (c : Nat) (kids : List Nat) (f : Frame) : Prop :=
  (f.tail = [] ∧ Emits w env w.doc.nodes.length c kids f.pre ∧
    ∀ j, kids.getLast? = some j → ∃ m, w.doc.nodes[j]? = some m ∧ m.klass ≠ .text) ∨
  (f.tail ≠ [] ∧ ∃ ks j, kids = ks ++ [j] ∧ c < j ∧ j < w.doc.nodes.length ∧ Emits w env j c ks f.pre ∧
    w.doc.nodes[j]? = some ⟨.text, some c, [], f.tail⟩ ∧ w.extra j = none)

theorem kids_emits {c : Nat} {kids : List Nat} {f : Frame} (h : Kids w env c kids f) :
    Emits w env w.doc.nodes.length c kids f.inner := by
  rcases h with ⟨h1, h2, _⟩ | ⟨h1, ks, j, h2, h3, h4, h5, h6, h7⟩
  · rw [Frame.inner, h1]
    simpa [words] using h2
  · rw [h2, Frame.inner]
    refine emits_append (emits_mono h5 (Nat.le_of_lt h4)) ?_
    have e : words f.tail = [.text f.tail] ++ [] ++ [.text ['\n']] ++ [] := by simp [words, h1]
    rw [e]
    refine .cons c j [] _ _ _ _ _ h3 h4 h6 (by rw [h7]; simp) ?_ ?_ (.nil j) (.nil c)
    · simp only [Wiki.opens, h7]; rfl
    · simp only [Wiki.closes, h7]; rfl

/-- The open elements around the innermost one, `child`, whose parent is given. -/
def Below (w : Wiki) (env : Env) : Nat → Option Nat → List Frame → Prop
  | child, none, [] => child = 0
  | child, some p, g :: gs => p < child ∧ g.tail = [] ∧ g.good ∧ ∃ n kids, w.doc.nodes[p]? = some n ∧ n.klass = g.klass ∧
      n.children = kids ++ [child] ∧ w.extra p = g.extra ∧ Emits w env child p kids g.pre ∧ Below w env p n.parent gs
  | _, _, _ => False

theorem below_stable {child : Nat} {p : Option Nat} {gs : List Frame} (h : Below w env child p gs)
    (hs : ∀ j, j < child → w'.doc.nodes[j]? = w.doc.nodes[j]? ∧ w'.extra j = w.extra j) : Below w' env child p gs := by
  induction gs generalizing child p with
  | nil => cases p with
    | none => exact h
    | some p => exact h
  | cons g gs ih =>
    cases p with
    | none => exact h
    | some p =>
      obtain ⟨h1, h2, h3, n, kids, h4, h5, h6, h7, h8, h9⟩ := h
      exact ⟨h1, h2, h3, n, kids, (hs p h1).1.trans h4, h5, h6, (hs p h1).2.trans h7, emits_stable h8 fun j _ k => hs j k,
        ih h9 fun j hj => hs j (Nat.lt_trans hj h1)⟩

/-- The element `c` is open, and it and those around it are as the stack tells. -/
def AtPos (w : Wiki) (env : Env) (c : Nat) (f : Frame) (fs : List Frame) : Prop :=
  f.good ∧ ∃ n, w.doc.nodes[c]? = some n ∧ n.klass = f.klass ∧ w.extra c = f.extra ∧ Kids w env c n.children f ∧
    Below w env c n.parent fs

/-- The open elements from the innermost one. -/
def At (w : Wiki) (env : Env) : List Frame → Prop
  | [] => False
  | f :: fs => (∃ c, w.doc.current = some c ∧ AtPos w env c f fs) ∧ ∀ x ∈ w.side, x.1 < w.doc.nodes.length

/-- Closing an element inside another. -/
def shut (f g : Frame) : Frame := { g with pre := g.pre ++ f.toks, tail := [] }

theorem at_close {c : Nat} {f g : Frame} {gs : List Frame} (h : AtPos w env c f (g :: gs)) :
    ∃ n p, w.doc.nodes[c]? = some n ∧ n.parent = some p ∧ p < c ∧ AtPos w env p (shut f g) gs := by
  obtain ⟨hf, n, hn, hk, hx, hkids, hb⟩ := h
  obtain ⟨nk, np, nc, nt⟩ := n
  cases np with
  | none => exact False.elim hb
  | some p =>
    obtain ⟨h1, h2, h3, m, kids, h4, h5, h6, h7, h8, h9⟩ := hb
    have hc : c < w.doc.nodes.length := by
      rcases Nat.lt_or_ge c w.doc.nodes.length with h | h
      · exact h
      · rw [List.getElem?_eq_none h] at hn; cases hn
    refine ⟨_, p, hn, rfl, h1, h3, m, h4, h5, h7, ?_, h9⟩
    refine Or.inl ⟨rfl, ?_, ?_⟩
    · rw [h6]
      refine emits_append (emits_mono h8 (Nat.le_of_lt hc)) ?_
      have := Emits.cons (env := env) (hi := w.doc.nodes.length) p c [] _ _ _ _ _ h1 hc hn
        (by rw [hx]; rcases hf.2.2 with h | h | ⟨l, h⟩ <;> rw [h] <;> simp) (good_opens hf hk hx) (good_closes hf hk hx) (kids_emits hkids) (.nil p)
      simpa [Frame.toks] using this
    · intro j hj
      rw [h6, List.getLast?_concat] at hj
      cases hj
      exact ⟨_, hn, by rw [hk]; exact hf.1⟩

end Bglib.Doc
