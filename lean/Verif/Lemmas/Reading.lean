import Verif.Spec.Reading
import Verif.Lemmas.DocCode
/-
Words and depths.
-/
namespace Bglib.Doc
open Spec.Document

theorem wordsFrom_blank (a b : Text) (acc : Text) (c : Char) (hc : c = ' ' ∨ c = '\n') :
    wordsFrom acc (a ++ c :: b) = wordsFrom acc a ++ wordsFrom [] b := by
  induction a generalizing acc with
  | nil => simp [wordsFrom, hc]
  | cons d a ih =>
    rw [List.cons_append, wordsFrom, wordsFrom]
    split
    · rw [ih, List.append_assoc]
    · exact ih _

theorem wordsOf_blank (a b : Text) (c : Char) (hc : c = ' ' ∨ c = '\n') : wordsOf (a ++ c :: b) = wordsOf a ++ wordsOf b := wordsFrom_blank a b [] c hc

theorem wordsOf_nil : wordsOf [] = [] := rfl

theorem wordsOf_end (a : Text) (c : Char) (hc : c = ' ' ∨ c = '\n') : wordsOf (a ++ [c]) = wordsOf a := by
  rw [wordsOf_blank a [] c hc, wordsOf_nil, List.append_nil]

theorem wordsOf_apart {a b : Text} (h : Apart a b) : wordsOf (a ++ b) = wordsOf a ++ wordsOf b := by
  rcases h with h | h
  · obtain ⟨a', rfl⟩ : ∃ a', a = a' ++ [' '] := by
      obtain ⟨h1, h2⟩ := List.getLast?_eq_some_iff.1 h
      exact ⟨h1, h2⟩
    rw [wordsOf_end a' ' ' (Or.inl rfl), List.append_assoc]
    exact wordsOf_blank a' b ' ' (Or.inl rfl)
  · cases b with
    | nil => cases h
    | cons c b =>
      have : c = ' ' := by simpa using h
      subst this
      have e := wordsOf_blank [] b ' ' (Or.inl rfl)
      rw [List.nil_append, wordsOf_nil, List.nil_append] at e
      rw [wordsOf_blank a b ' ' (Or.inl rfl), e]

theorem visible_append (a b : List Tok) : visible (a ++ b) = visible a ++ visible b := by simp [visible]

theorem visible_words (t : Text) : visible (words t) = if t = [] then [] else t ++ ['\n'] := by
  unfold words
  split <;> simp [visible]

theorem wordsOf_visible_words (t r : Text) : wordsOf (visible (words t) ++ r) = wordsOf t ++ wordsOf r := by
  rw [visible_words]
  split
  · next h => subst h; simp [wordsOf_nil]
  · rw [List.append_assoc]; exact wordsOf_blank t r '\n' (Or.inr rfl)

theorem visible_element (tag : Text) (t : List Tok) : visible (element tag t) = visible t := by simp [visible, element]

theorem flow_words (l : Line) (t : Text) (h : Loose l) (ht : t = [] ∨ ∀ p, l.head? = some p → Apart t p.text) :
    wordsOf (visible (flow t l)) = wordsOf t ++ l.flatMap fun p => wordsOf p.text := by
  induction l generalizing t with
  | nil =>
    have := wordsOf_visible_words t []
    rw [List.append_nil, wordsOf_nil] at this
    simpa [flow] using this
  | cons p l ih =>
    have hl : Loose l := by
      cases l with
      | nil => trivial
      | cons q l => exact h.2
    cases p with
    | plain u =>
      rw [flow, ih (t ++ u) hl, List.flatMap_cons, ← List.append_assoc]
      · congr 1
        rcases ht with rfl | ht
        · simp [wordsOf_nil, Piece.text]
        · exact wordsOf_apart (ht _ rfl)
      · right
        intro q hq
        cases l with
        | nil => cases hq
        | cons q' l =>
          cases hq
          rcases h.1 with k | k
          · left
            have k : u.getLast? = some ' ' := k
            rw [List.getLast?_append, k]
            rfl
          · exact Or.inr k
    | styled s u =>
      rw [flow, visible_append, visible_append, visible_element, List.append_assoc, wordsOf_visible_words, wordsOf_visible_words,
        ih [] hl (Or.inl rfl)]
      simp [wordsOf_nil, Piece.text]

theorem line_words (l : Line) (h : Loose l) : wordsOf (l.flatMap Piece.text) = l.flatMap fun p => wordsOf p.text := by
  induction l with
  | nil => rfl
  | cons p l ih =>
    have hl : Loose l := by
      cases l with
      | nil => trivial
      | cons q l => exact h.2
    rw [List.flatMap_cons, List.flatMap_cons, ← ih hl]
    cases l with
    | nil => simp [wordsOf_nil]
    | cons q l =>
      by_cases hq : q.text = []
      · have k : p.text.getLast? = some ' ' := by
          rcases h.1 with k | k
          · exact k
          · rw [hq] at k; cases k
        exact wordsOf_apart (Or.inl k)
      · refine wordsOf_apart ?_
        rcases h.1 with k | k
        · exact Or.inl k
        · right
          rw [List.flatMap_cons, List.head?_append, k]
          rfl

theorem loose_left {a b : Line} (h : Loose (a ++ b)) : Loose a := by
  induction a with
  | nil => trivial
  | cons p a ih =>
    cases a with
    | nil => trivial
    | cons q a => exact ⟨h.1, ih h.2⟩

theorem loose_right {a b : Line} (h : Loose (a ++ b)) : Loose b := by
  induction a with
  | nil => exact h
  | cons p a ih =>
    refine ih ?_
    rw [List.cons_append] at h
    cases hab : a ++ b with
    | nil => trivial
    | cons q r => rw [hab] at h; exact h.2

theorem unmarked_words (ls : List Line) (h : Loose ls.flatten) : wordsOf (unmarked ls) = ls.flatten.flatMap fun p => wordsOf p.text := by
  induction ls with
  | nil => rfl
  | cons l ls ih =>
    rw [List.flatten_cons] at h
    rw [List.flatten_cons, List.flatMap_append, ← ih (loose_right h), ← line_words l (loose_left h)]
    have e : unmarked (l :: ls) = l.flatMap Piece.text ++ '\n' :: unmarked ls := by simp [unmarked]
    rw [e]
    exact wordsOf_blank _ _ '\n' (Or.inr rfl)

theorem lines_html (ls : List Line) (before : Line) : partsHtml before (ls.map .line) = flow [] (before ++ ls.flatten) := by
  induction ls generalizing before with
  | nil => simp [partsHtml]
  | cons l ls ih => simp only [List.map_cons, partsHtml, ih, List.flatten_cons, List.append_assoc]

/-! ### Depths -/

theorem depths_words (d : Nat) (t : Text) (r : List Tok) : depthsFrom d (words t ++ r) = depthsFrom d r := by
  unfold words
  split <;> simp [depthsFrom]

theorem depths_flow (d : Nat) (l : Line) (t : Text) (r : List Tok) : depthsFrom d (flow t l ++ r) = depthsFrom d r := by
  induction l generalizing t with
  | nil => exact depths_words d t r
  | cons p l ih =>
    cases p with
    | plain u => exact ih _
    | styled s u =>
      have e : flow t (.styled s u :: l) ++ r = words t ++ (.opening s.tag :: (words u ++ (.closing s.tag :: (flow [] l ++ r)))) := by
        simp [flow, element]
      have h1 : isList s.tag = false := by cases s <;> decide
      have h2 : s.tag ≠ t!"li" := by cases s <;> decide
      rw [e, depths_words, depthsFrom, h1, if_neg (by simp), if_neg h2, depths_words, depthsFrom, h1, if_neg (by simp)]
      exact ih _

/-- How deep the items are. -/
def itemDepths (d : Nat) : Items → List Nat
  | .none => []
  | .item _ _ _ below next => d :: (itemDepths (d + 1) below ++ itemDepths d next)

theorem depths_items (it : Items) (d : Nat) (r : List Tok) : depthsFrom d (it.html ++ r) = itemDepths d it ++ depthsFrom d r := by
  induction it generalizing d r with
  | none => rfl
  | item m l ls below next ihb ihn =>
    have e : (Items.item m l ls below next).html ++ r =
        .opening t!"li" :: (shown (l :: ls) ++ (below.list below.html ++ (.closing t!"li" :: (next.html ++ r)))) := by
      simp [Items.html, element]
    have h1 : isList t!"li" = false := by decide
    rw [e, depthsFrom, h1, if_neg (by simp), if_pos rfl, shown, depths_flow, itemDepths, List.cons_append, List.append_assoc, ← ihn]
    congr 1
    have h2 : depthsFrom d (.closing t!"li" :: (next.html ++ r)) = depthsFrom d (next.html ++ r) := by
      rw [depthsFrom, h1, if_neg (by simp)]
    cases below with
    | none => exact h2
    | item m' l' ls' b' n' =>
      have e' : (Items.item m' l' ls' b' n').list (Items.item m' l' ls' b' n').html ++ (.closing t!"li" :: (next.html ++ r)) =
          .opening m'.tag :: ((Items.item m' l' ls' b' n').html ++ (.closing m'.tag :: (.closing t!"li" :: (next.html ++ r)))) := by
        simp [Items.list, element]
      have h3 : isList m'.tag = true := by cases m' <;> rfl
      rw [e', depthsFrom, h3, if_pos rfl, ihb, depthsFrom, h3, if_pos rfl, Nat.add_sub_cancel, h2]

theorem steps_left {a b : List Nat} (h : Steps (a ++ b)) : Steps a := by
  induction a with
  | nil => trivial
  | cons p a ih =>
    cases a with
    | nil => trivial
    | cons q a => exact ⟨h.1, ih h.2⟩

theorem steps_right {a b : List Nat} (h : Steps (a ++ b)) : Steps b := by
  induction a with
  | nil => exact h
  | cons p a ih =>
    refine ih ?_
    rw [List.cons_append] at h
    cases hab : a ++ b with
    | nil => trivial
    | cons q r => rw [hab] at h; exact h.2

/-- Starred items as a tree. -/
theorem starred_tree (k : Nat) (xs : List (Nat × Line)) (d : Nat) (hk : xs.length ≤ k) (hd : ∀ x ∈ xs, d ≤ x.1) (h0 : ∀ x, xs.head? = some x → x.1 = d)
    (hs : Steps (xs.map (·.1))) (hf : ∀ x ∈ xs, Fit x.2) :
    ∃ it : Items, it.Fit false ∧ it.signed = false ∧ (xs ≠ [] → it ≠ .none) ∧ itemDepths d it = xs.map (·.1) ∧
      it.write d = xs.map fun x => List.replicate x.1 ' ' ++ t!"* " ++ write x.2 := by
  induction k generalizing xs d with
  | zero =>
    have : xs = [] := List.length_eq_zero_iff.1 (by omega)
    subst this
    exact ⟨.none, trivial, rfl, by simp, rfl, rfl⟩
  | succ k ih =>
    cases xs with
    | nil => exact ⟨.none, trivial, rfl, by simp, rfl, rfl⟩
    | cons x xs =>
      have hx : x.1 = d := h0 x rfl
      let ys := xs.takeWhile fun y => decide (d < y.1)
      let zs := xs.dropWhile fun y => decide (d < y.1)
      have hyz : ys ++ zs = xs := List.takeWhile_append_dropWhile
      have hys : ∀ y ∈ ys, d < y.1 := by
        intro y hy
        have : (List.takeWhile (fun y : Nat × Line => decide (d < y.1)) xs).all (fun y => decide (d < y.1)) = true := List.all_takeWhile
        simpa using List.all_eq_true.1 this y hy
      have hsub1 : ∀ y ∈ ys, y ∈ x :: xs := fun y hy => List.mem_cons_of_mem _ (by rw [← hyz]; exact List.mem_append_left _ hy)
      have hsub2 : ∀ y ∈ zs, y ∈ x :: xs := fun y hy => List.mem_cons_of_mem _ (by rw [← hyz]; exact List.mem_append_right _ hy)
      have hl : ys.length + zs.length = xs.length := by rw [← hyz, List.length_append]
      have hlen : xs.length ≤ k := by simpa using hk
      have hs' : Steps ([x.1] ++ (ys.map (·.1) ++ zs.map (·.1))) := by
        have e : (x :: xs).map (·.1) = [x.1] ++ (ys.map (·.1) ++ zs.map (·.1)) := by rw [← List.map_append, hyz]; rfl
        rw [← e]; exact hs
      obtain ⟨below, b1, b2, b3, b4, b5⟩ := ih ys (d + 1) (by omega) hys (by
        intro y hy
        have h1 := hys y (List.mem_of_head? hy)
        cases hyy : ys with
        | nil => rw [hyy] at hy; cases hy
        | cons y' r =>
          rw [hyy] at hy hs'
          have e : y' = y := Option.some.inj hy
          have : y'.1 ≤ x.1 + 1 := hs'.1
          rw [e] at this
          omega) (steps_left (steps_right hs')) fun y hy => hf y (hsub1 y hy)
      obtain ⟨next, n1, n2, n3, n4, n5⟩ := ih zs d (by omega) (fun y hy => hd y (hsub2 y hy)) (by
        intro y hy
        have h1 := hd y (hsub2 y (List.mem_of_head? hy))
        have h2 : ¬ d < y.1 := by
          have := List.head?_dropWhile_not (fun y : Nat × Line => decide (d < y.1)) xs
          have e : (List.dropWhile (fun y : Nat × Line => decide (d < y.1)) xs).head? = some y := hy
          rw [e] at this
          simpa using this
        omega) (steps_right (steps_right hs')) fun y hy => hf y (hsub2 y hy)
      refine ⟨.item .star x.2 [] below next, ⟨by simp, hf x (List.mem_cons_self ..), by simp, by rw [b2]; exact b1, n1⟩, rfl, by simp, ?_, ?_⟩
      · rw [itemDepths, b4, n4, List.map_cons, hx, ← hyz, List.map_append]
      · rw [Items.write, b5, n5, List.map_cons, ← hyz, List.map_append, hx]
        simp [Mark.write]

end Bglib.Doc
