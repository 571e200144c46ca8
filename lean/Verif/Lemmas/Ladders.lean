import Verif.Lemmas.Contents
import Verif.Lemmas.DocCode
import Verif.Lemmas.Reading
import Verif.Spec.Ladders
/-
Starred items that are indented by any numbers of spaces.
-/
namespace Bglib.Doc
open Spec.Document

variable {w w' : Wiki} {env : Env}

/-! ### Lists that are open behind tokens -/

/-- In how many lists one is behind tokens. -/
def level (d : Nat) : List Tok → Nat
  | [] => d
  | .opening t :: r => level (if isList t then d + 1 else d) r
  | .closing t :: r => level (if isList t then d - 1 else d) r
  | _ :: r => level d r

theorem level_append (d : Nat) (a b : List Tok) : level d (a ++ b) = level (level d a) b := by
  induction a generalizing d with
  | nil => rfl
  | cons x a ih => cases x <;> exact ih _

theorem depths_append (d : Nat) (a b : List Tok) : depthsFrom d (a ++ b) = depthsFrom d a ++ depthsFrom (level d a) b := by
  induction a generalizing d with
  | nil => rfl
  | cons x a ih =>
    cases x <;> simp only [List.cons_append, depthsFrom, level, ih]
    all_goals (repeat' split) <;> simp_all

theorem level_words (d : Nat) (t : Text) (r : List Tok) : level d (words t ++ r) = level d r := by
  unfold words
  split <;> simp [level]

theorem level_flow (d : Nat) (l : Line) (t : Text) (r : List Tok) : level d (flow t l ++ r) = level d r := by
  induction l generalizing t with
  | nil => exact level_words d t r
  | cons p l ih =>
    cases p with
    | plain u => exact ih _
    | styled s u =>
      have e : flow t (.styled s u :: l) ++ r = words t ++ (.opening s.tag :: (words u ++ (.closing s.tag :: (flow [] l ++ r)))) := by
        simp [flow, element]
      have h1 : isList s.tag = false := by cases s <;> decide
      rw [e, level_words, level, h1, if_neg (by simp), level_words, level, h1, if_neg (by simp)]
      exact ih _

/-! ### Frames -/

abbrev stars : Klass := .list (some .star)

def isLists (f : Frame) : Bool := f.klass.isA (.list none)

/-- Open items and lists of stars, with items this deep so far. -/
structure Rungs (fs : List Frame) (D : List Nat) : Prop where
  kinds : ∀ f ∈ fs, f.klass = .itemize ∨ f.klass = stars ∨ f.klass = .div ∨ f.klass = .root
  tails : ∀ f ∈ fs.tail, f.tail = []
  empty : ∀ f ∈ fs, f.klass ≠ .itemize → f.tail = []
  level : level 0 (sofar fs) = fs.countP isLists
  depth : depthsFrom 0 (sofar fs) = D

theorem rungs_shut {f g : Frame} {gs : List Frame} {D : List Nat} (h : Rungs (f :: g :: gs) D) : Rungs (shut f g :: gs) D := by
  have hg : g.tail = [] := h.tails g (by simp)
  have hk := h.kinds f (by simp)
  have hl := h.level
  have hd := h.depth
  refine ⟨?_, ?_, ?_, ?_, ?_⟩
  · intro x hx
    rcases List.mem_cons.1 hx with rfl | hx
    · exact h.kinds g (by simp)
    · exact h.kinds x (by simp [hx])
  · intro x hx
    exact h.tails x (by simp at hx ⊢; exact Or.inr hx)
  · intro x hx hn
    rcases List.mem_cons.1 hx with rfl | hx
    · rfl
    · exact h.empty x (by simp [hx]) hn
  · rw [sofar_shut _ _ _ hg, level_append, hl]
    have e : isLists (shut f g) = isLists g := rfl
    simp only [List.countP_cons, e]
    have hb : isLists f = decide (f.klass = stars) := by
      rw [isLists]
      rcases hk with k | k | k | k <;> rw [k] <;> rfl
    rw [hb]
    rcases hk with k | k | k | k <;> simp [k, closeToks, Node.closes, Klass.tag, Design.tag, Doc.level, isList]
  · rw [sofar_shut _ _ _ hg, depths_append, hd]
    rcases hk with k | k | k | k <;> simp [k, closeToks, Node.closes, Klass.tag, Design.tag, depthsFrom, isList]

theorem rungs_unwind (P : Klass → Bool) (fs : List Frame) (f f' : Frame) (fs' : List Frame) {D : List Nat} (h : Rungs (f :: fs) D)
    (e : unwind P f fs = some (f', fs')) :
    Rungs (f' :: fs') D ∧ (f' :: fs').map (·.klass) = ((f :: fs).map (·.klass)).dropWhile fun k => !P k := by
  induction fs generalizing f with
  | nil =>
    simp only [unwind] at e
    split at e
    · next hp => cases e; exact ⟨h, by simp [hp]⟩
    · cases e
  | cons g gs ih =>
    simp only [unwind] at e
    split at e
    · next hp => cases e; exact ⟨h, by simp [hp]⟩
    · next hp =>
      obtain ⟨a, b⟩ := ih (shut f g) (rungs_shut h) e
      refine ⟨a, ?_⟩
      rw [b]
      have : (!P f.klass) = true := by simpa using hp
      rw [List.map_cons (a := f), List.dropWhile_cons, if_pos this]
      rfl

/-- The kinds that are left open. -/
def leaveK (P : Klass → Bool) (ks : List Klass) : List Klass :=
  if ks.any P then (ks.dropWhile fun k => !P k).tail else ks

theorem rungs_leave (ks : List Klass) {fs : List Frame} {D : List Nat} (h : Rungs fs D)
    (hr : ∀ k, (fs.map (·.klass)).getLast? = some k → (ks.any fun c => k.isA c) = false) :
    Rungs (leaveZ ks fs) D ∧ (leaveZ ks fs).map (·.klass) = leaveK (fun k => ks.any fun c => k.isA c) (fs.map (·.klass)) := by
  cases fs with
  | nil => exact ⟨h, rfl⟩
  | cons f fs =>
    simp only [leaveZ]
    split
    · next f' g gs e =>
      obtain ⟨a, b⟩ := rungs_unwind _ _ _ _ _ h e
      refine ⟨rungs_shut a, ?_⟩
      have : ((f :: fs).map (·.klass)).any (fun k => ks.any fun c => k.isA c) = true := by
        cases hh : ((f :: fs).map (·.klass)).any (fun k => ks.any fun c => k.isA c) with
        | true => rfl
        | false =>
          have := (unwind_none (fun k => ks.any fun c => k.isA c) f fs).2 (by
            rw [List.any_map] at hh
            exact hh)
          rw [this] at e; cases e
      rw [leaveK, if_pos this, ← b]
      rfl
    · next hn =>
      refine ⟨h, ?_⟩
      rw [leaveK, if_neg]
      intro hh
      cases e : unwind (fun k => ks.any fun c => k.isA c) f fs with
      | none =>
        have := (unwind_none (fun k => ks.any fun c => k.isA c) f fs).1 e
        rw [List.any_map] at hh
        have h2 : (f :: fs).any ((fun k => ks.any fun c => k.isA c) ∘ fun x => x.klass) = false := this
        rw [hh] at h2
        cases h2
      | some x =>
        obtain ⟨f', gs⟩ := x
        cases gs with
        | cons g gs => exact hn f' g gs e
        | nil =>
          obtain ⟨_, b⟩ := rungs_unwind _ _ _ _ _ h e
          have hl : ((f :: fs).map (·.klass)).getLast? = some f'.klass := by
            have h1 : [f'.klass] <:+ (f :: fs).map (·.klass) := by
              have h2 : [f'.klass] = _ := b
              rw [h2]
              exact List.dropWhile_suffix _
            obtain ⟨t, ht⟩ := h1
            rw [← ht, List.getLast?_concat]
          have h0 := hr _ hl
          have h3 : (List.map (·.klass) [f']).head? = some f'.klass := rfl
          rw [b] at h3
          have h4 := List.head?_dropWhile_not (fun k : Klass => !(ks.any fun c => k.isA c)) ((f :: fs).map (·.klass))
          rw [h3] at h4
          simp only [h0] at h4
          cases h4

theorem rungs_enter {k : Klass} {x : Option Extra} {f : Frame} {fs : List Frame} {D : List Nat} (h : Rungs (f :: fs) D) (hk : k = stars ∨ k = .itemize) :
    Rungs (⟨k, x, [], []⟩ :: f.under :: fs) (if k = .itemize then D ++ [(f :: fs).countP isLists] else D) := by
  have hl := h.level
  have hd := h.depth
  have e0 : sofar (⟨k, x, [], []⟩ :: f.under :: fs) = sofar (f :: fs) ++ openToks k := by
    simp [sofar, Frame.under, Frame.inner, words]
  refine ⟨?_, ?_, ?_, ?_, ?_⟩
  · intro y hy
    rcases List.mem_cons.1 hy with rfl | hy
    · rcases hk with rfl | rfl
      · exact Or.inr (Or.inl rfl)
      · exact Or.inl rfl
    · rcases List.mem_cons.1 hy with rfl | hy
      · exact h.kinds f (by simp)
      · exact h.kinds y (by simp [hy])
  · intro y hy
    rcases List.mem_cons.1 hy with rfl | hy
    · rfl
    · exact h.tails y hy
  · intro y hy hn
    rcases List.mem_cons.1 hy with rfl | hy
    · rfl
    · rcases List.mem_cons.1 hy with rfl | hy
      · rfl
      · exact h.empty y (by simp [hy]) hn
  · rw [e0, level_append, hl]
    have e : isLists f.under = isLists f := rfl
    have hb : isLists ⟨k, x, [], []⟩ = decide (k = stars) := by
      rw [isLists]
      rcases hk with rfl | rfl <;> rfl
    simp only [List.countP_cons, e, hb]
    rcases hk with rfl | rfl <;> simp [openToks, Node.opens, Klass.tag, Design.tag, Doc.level, isList]
  · rw [e0, depths_append, hd, hl]
    rcases hk with rfl | rfl <;> simp [openToks, Node.opens, Klass.tag, Design.tag, depthsFrom, isList]

theorem rungs_line {l : Line} {fs : List Frame} {D : List Nat} (h : Rungs (freshItem :: fs) D) : Rungs (addLine freshItem l :: fs) D := by
  have hin : (addLine freshItem l).inner = flow [] l := addLine_inner freshItem l
  have e0 : sofar (freshItem :: fs) = sofar fs ++ openToks .itemize := by
    simp [sofar, freshItem, Frame.inner, words]
  have e1 : sofar (addLine freshItem l :: fs) = sofar fs ++ openToks .itemize ++ (flow [] l ++ []) := by
    rw [sofar, hin, addLine_klass, List.append_nil]
    rfl
  have hk : (addLine freshItem l).klass = .itemize := addLine_klass _ _
  refine ⟨?_, ?_, ?_, ?_, ?_⟩
  · intro y hy
    rcases List.mem_cons.1 hy with rfl | hy
    · exact Or.inl hk
    · exact h.kinds y (by simp [hy])
  · exact fun y hy => h.tails y hy
  · intro y hy hn
    rcases List.mem_cons.1 hy with rfl | hy
    · exact absurd hk hn
    · exact h.empty y (by simp [hy]) hn
  · rw [e1, level_append, level_flow, ← e0, h.level, List.countP_cons, List.countP_cons]
    simp only [isLists, hk]
    rfl
  · rw [e1, depths_append, depths_flow, ← e0, h.depth]
    simp [depthsFrom]

end Bglib.Doc
