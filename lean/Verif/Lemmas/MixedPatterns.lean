import Verif.Spec.Mixed
import Verif.Lemmas.DocMarks
/-
How links and macros are matched.
-/
namespace Bglib.Doc
open Spec Spec.Mixed

/-- The first way `r` matches in front of `s ++ t` is by reading `s`. -/
def Front (r : Re) (b : Bool) (s t : Text) (g g' : List (Text × Text)) : Prop :=
  ∃ l, r.all ⟨b, s ++ t, g⟩ = ⟨b && s.isEmpty, t, g'⟩ :: l

theorem front_ch (c : Char) (b : Bool) (t : Text) (g : List (Text × Text)) : Front (.ch c) b [c] t g g :=
  ⟨[], by simp [ch_all]⟩

theorem front_eps (b : Bool) (t : Text) (g : List (Text × Text)) : Front .eps b [] t g g := ⟨[], by simp [Re.all]⟩

theorem front_set {s : CharSet} {c : Char} (h : s.mem c = true) (b : Bool) (t : Text) (g : List (Text × Text)) : Front (.set s) b [c] t g g :=
  ⟨[], by simp [Re.all, h]⟩

theorem front_seq {a c : Re} {b : Bool} {s1 s2 t : Text} {g g1 g2 : List (Text × Text)} (h1 : Front a b s1 (s2 ++ t) g g1)
    (h2 : Front c (b && s1.isEmpty) s2 t g1 g2) : Front (.seq a c) b (s1 ++ s2) t g g2 := by
  obtain ⟨l1, e1⟩ := h1
  obtain ⟨l2, e2⟩ := h2
  refine ⟨l2 ++ l1.flatMap c.all, ?_⟩
  rw [List.append_assoc, seq_all, e1, List.flatMap_cons, e2]
  have : (s1 ++ s2).isEmpty = (s1.isEmpty && s2.isEmpty) := by cases s1 <;> rfl
  simp [this, Bool.and_assoc]

theorem front_left {a c : Re} {b : Bool} {s t : Text} {g g' : List (Text × Text)} (h : Front a b s t g g') : Front (.alt a c) b s t g g' := by
  obtain ⟨l, e⟩ := h
  exact ⟨l ++ c.all ⟨b, s ++ t, g⟩, by rw [alt_all, e]; rfl⟩

theorem front_right {a c : Re} {b : Bool} {s t : Text} {g g' : List (Text × Text)} (h : Front c b s t g g')
    (h0 : a.all ⟨b, s ++ t, g⟩ = []) : Front (.alt a c) b s t g g' := by
  obtain ⟨l, e⟩ := h
  exact ⟨l, by rw [alt_all, h0, e]; rfl⟩

theorem front_lit (s t : Text) (b : Bool) (g : List (Text × Text)) : Front (.lit s) b s t g g := by
  induction s generalizing b with
  | nil => exact front_eps b t g
  | cons c s ih =>
    cases s with
    | nil => exact front_ch c b t g
    | cons d s => exact front_seq (s1 := [c]) (front_ch c b _ g) (ih _)

theorem front_plus (cs : CharSet) (s t : Text) (b : Bool) (g : List (Text × Text)) (h0 : s ≠ []) (hs : s.all cs.mem = true)
    (ht : ∀ c, t.head? = some c → cs.mem c = false) : Front (.plus (.set cs)) b s t g g := by
  obtain ⟨l, e⟩ := rep_head cs s t b g (List.all_eq_true.1 hs) ht (s ++ t).length 1 (by simp)
    (List.length_pos_iff.2 h0)
  refine ⟨l, ?_⟩
  show repAll (Re.set cs).all (s ++ t).length 1 ⟨b, s ++ t, g⟩ = _
  rw [e]
  cases s with
  | nil => exact absurd rfl h0
  | cons c s => simp

theorem front_group {r : Re} {b : Bool} {s t : Text} {g g' : List (Text × Text)} (n : Text) (h : Front r b s t g g') :
    Front (.group n r) b s t g ((n, s) :: g') := by
  obtain ⟨l, e⟩ := h
  refine ⟨l.map fun q => { q with groups := (n, between ⟨b, s ++ t, g⟩ q) :: q.groups }, ?_⟩
  simp only [Re.all, e, List.map_cons]
  rw [between_eq (s := s) rfl]

theorem front_some {r : Re} {b : Bool} {s t : Text} {g g' : List (Text × Text)} (h0 : s ≠ []) (h : Front r b s t g g') :
    Front (.opt r) b s t g g' := by
  obtain ⟨l, e⟩ := h
  simp only [Front, Re.opt, Re.all, Option.getD_some, repAll, e]
  rw [List.filter_cons_of_pos (by simpa using List.length_pos_iff.2 h0)]
  simp

theorem front_none {r : Re} {b : Bool} {t : Text} {g : List (Text × Text)} (h : r.all ⟨b, t, g⟩ = []) :
    Front (.opt r) b [] t g g := by
  simp only [Front, Re.opt, Re.all, Option.getD_some, repAll, List.nil_append, h]
  simp

theorem front_first {α : Type} {n : α} {r : Re} {rest : List (α × Re)} {b : Bool} {s t : Text} {g : List (Text × Text)} (h0 : s ≠ [])
    (h : Front r b s t [] g) : firstPattern ((n, r) :: rest) ⟨b, s ++ t, []⟩ = some (n, s, g, ⟨false, t, g⟩) := by
  obtain ⟨l, e⟩ := h
  rw [firstPattern_head n r rest _ _ l e, between_eq (s := s) rfl]
  cases s with
  | nil => exact absurd rfl h0
  | cons c s => simp

/-! ### Patterns that may have an exclamation mark -/

/-- Those patterns, without it. -/
def bangs : List (Pat × Re) := linePatterns.filterMap fun x => match x.2 with
  | .seq a r => if a = bang then some (x.1, r) else none
  | _ => none

theorem patterns_split : linePatterns = (bangs.take 15).map (fun x => (x.1, .seq bang x.2)) ++ (.macro, macroRe) ::
    (bangs.drop 15).map (fun x => (x.1, .seq bang x.2)) ++ linePatterns.drop 25 := by decide +kernel

theorem firstPattern_append {α : Type} (xs ys : List (α × Re)) (p : Place) :
    firstPattern (xs ++ ys) p = match firstPattern xs p with
      | some x => some x
      | none => firstPattern ys p := by
  induction xs with
  | nil => rfl
  | cons x xs ih =>
    obtain ⟨n, r⟩ := x
    simp only [List.cons_append, firstPattern]
    cases r.all p with
    | nil => exact ih
    | cons q l => rfl

theorem firstPattern_unbang (xs : List (Pat × Re)) (b : Bool) (c : Char) (t : Text) (h : c ≠ '!') :
    firstPattern (xs.map fun x => (x.1, Re.seq bang x.2)) ⟨b, c :: t, []⟩ = firstPattern xs ⟨b, c :: t, []⟩ := by
  induction xs with
  | nil => rfl
  | cons x xs ih =>
    obtain ⟨n, r⟩ := x
    simp only [List.map_cons, firstPattern, seq_all, bang_all _ _ _ _ h, List.flatMap_cons, List.flatMap_nil, List.append_nil, ih]

theorem bang_bang (b : Bool) (t : Text) (g : List (Text × Text)) : bang.all ⟨b, '!' :: t, g⟩ = [⟨false, t, g⟩, ⟨b, '!' :: t, g⟩] := by
  simp only [bang, Re.opt, Re.all, Option.getD_some, repAll]
  rw [ch_all]
  simp

theorem between_cons (b b' : Bool) (c : Char) (t : Text) (g g' : List (Text × Text)) (q : Place) (h : q.rest <:+ t) :
    between ⟨b, c :: t, g⟩ q = c :: between ⟨b', t, g'⟩ q := by
  obtain ⟨s, hs⟩ := h
  subst hs
  rw [between_eq (p := ⟨b, c :: (s ++ q.rest), g⟩) (s := c :: s) rfl, between_eq (p := ⟨b', s ++ q.rest, g'⟩) (s := s) rfl]

theorem firstPattern_bang (xs : List (Pat × Re)) (b : Bool) (t : Text)
    (h : (xs.all fun x => !x.2.nul && !x.2.starts '!') = true) :
    firstPattern (xs.map fun x => (x.1, Re.seq bang x.2)) ⟨b, '!' :: t, []⟩ =
      (firstPattern xs ⟨false, t, []⟩).map fun y => (y.1, '!' :: y.2.1, y.2.2) := by
  induction xs with
  | nil => rfl
  | cons x xs ih =>
    obtain ⟨n, r⟩ := x
    rw [List.all_cons, Bool.and_eq_true, Bool.and_eq_true, Bool.not_eq_true', Bool.not_eq_true'] at h
    have e : r.all ⟨b, '!' :: t, []⟩ = [] := all_nil r '!' t _ rfl h.1.1 h.1.2
    simp only [List.map_cons, firstPattern, seq_all, bang_bang, List.flatMap_cons, List.flatMap_nil, List.append_nil, e, ih h.2]
    cases hr : r.all ⟨false, t, []⟩ with
    | nil => rfl
    | cons q l =>
      obtain ⟨s, h1, _⟩ := all_lang r _ q (by rw [hr]; exact List.mem_cons_self ..)
      simp only [Option.map_some]
      rw [between_cons b false '!' t [] [] q ⟨s, h1.symm⟩]

theorem bangs_check : (bangs.all fun x => !x.2.nul && !x.2.starts '!') = true := by decide +kernel

theorem bangs_nul : (bangs.all fun x => !x.2.nul) = true := by decide +kernel

/-- A pattern without its exclamation mark is found where there is none, if it is not a macro. -/
theorem first_unbang {b : Bool} {c : Char} {t : Text} {x : Pat × Text × List (Text × Text) × Place} (h : c ≠ '!')
    (hm : macroRe.all ⟨b, c :: t, []⟩ = []) (hx : firstPattern bangs ⟨b, c :: t, []⟩ = some x) :
    firstPattern linePatterns ⟨b, c :: t, []⟩ = some x := by
  rw [patterns_split, List.append_assoc, firstPattern_append, firstPattern_unbang _ _ _ _ h]
  rw [← List.take_append_drop 15 bangs, firstPattern_append] at hx
  cases h1 : firstPattern (bangs.take 15) ⟨b, c :: t, []⟩ with
  | some y => rw [h1] at hx; exact hx
  | none =>
    rw [h1] at hx
    dsimp only at hx ⊢
    rw [List.cons_append, firstPattern_skip _ _ _ _ hm, firstPattern_append, firstPattern_unbang _ _ _ _ h, hx]

/-- Behind an exclamation mark it is found with that. -/
theorem first_bang {b : Bool} {t : Text} {x : Pat × Text × List (Text × Text) × Place} (hx : firstPattern bangs ⟨false, t, []⟩ = some x) :
    firstPattern linePatterns ⟨b, '!' :: t, []⟩ = some (x.1, '!' :: x.2.1, x.2.2) := by
  have hc := bangs_check
  rw [← List.take_append_drop 15 bangs, List.all_append, Bool.and_eq_true] at hc
  rw [patterns_split, List.append_assoc, firstPattern_append, firstPattern_bang _ _ _ hc.1]
  rw [← List.take_append_drop 15 bangs, firstPattern_append] at hx
  cases h1 : firstPattern (bangs.take 15) ⟨false, t, []⟩ with
  | some y => rw [h1] at hx; dsimp only at hx; cases hx; rfl
  | none =>
    rw [h1] at hx
    dsimp only [Option.map_none] at hx ⊢
    rw [List.cons_append, firstPattern_skip _ _ _ _ (all_nil macroRe '!' t _ rfl (by decide) (by decide)), firstPattern_append,
      firstPattern_bang _ _ _ hc.2, hx]
    rfl

end Bglib.Doc
