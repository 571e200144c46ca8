import Verif.Lemmas.XmlTree
import Verif.Spec.Xml
/-
Reading the text of a tree.
-/
namespace Bglib
open Spec Img

private theorem while_append {p : Char → Bool} {c : Char} (hc : p c = false) (r : Text) : ∀ {a : Text}, (∀ x ∈ a, p x = true) →
    (a ++ c :: r).takeWhile p = a ∧ (a ++ c :: r).dropWhile p = c :: r
  | [], _ => by simp [hc]
  | x :: a, h => by
    have := while_append hc r (a := a) fun y hy => h y (List.mem_cons_of_mem _ hy)
    have hx := h x (List.mem_cons_self ..)
    simp [hx, this]

theorem unrefer_plain : ∀ {t : Text}, '&' ∉ t → unrefer t = some t
  | [], _ => rfl
  | c :: t, h => by
    have ih := unrefer_plain (t := t) fun h' => h (List.mem_cons_of_mem _ h')
    have hc : c ≠ '&' := fun e => h (e ▸ List.mem_cons_self ..)
    unfold unrefer
    split <;> rename_i he
    · cases he
    · exact absurd (List.cons.inj he).1 hc
    · exact absurd (List.cons.inj he).1 hc
    · exact absurd (List.cons.inj he).1 hc
    · exact absurd (List.cons.inj he).1 hc
    · exact absurd (List.cons.inj he).1 hc
    · obtain ⟨rfl, rfl⟩ := List.cons.inj he
      rw [if_neg hc, ih]
      rfl

/-- Values that stand for themselves. -/
def PlainValue (v : Value) : Prop := v.text.all plainChar = true

/-- Strings that are lines without blanks around them. -/
structure PlainLine (s : Text) : Prop where
  filled : s ≠ []
  plain : s.all plainChar = true
  first : s.head? ≠ some ' '
  last : s.getLast? ≠ some ' '

theorem plain_not {s : Text} (h : s.all plainChar = true) {c : Char} (hc : c ∈ s) : c ≠ '"' ∧ c ≠ '<' ∧ c ≠ '&' ∧ c ≠ '\n' := by
  have := List.all_eq_true.1 h c hc
  unfold plainChar at this
  simp only [Bool.and_eq_true, decide_eq_true_eq] at this
  obtain ⟨⟨⟨⟨h1, -⟩, h2⟩, h3⟩, h4⟩ := this
  refine ⟨h2, h3, h4, ?_⟩
  rintro rfl
  exact absurd h1 (by decide)

/-- The attributes of a tag are read. -/
theorem readAttrs_text {r : Text} : ∀ {l : List (Text × Value)} {n : Nat}, l.length ≤ n →
    (∀ x ∈ l, x.1 ≠ [] ∧ x.1.all nameChar = true ∧ PlainValue x.2) →
    readAttrs n (attrsText l ++ '>' :: r) = some (l.map fun x => (x.1, x.2.text), r)
  | [], n, _, _ => by
    unfold readAttrs
    rfl
  | (a, v) :: l, 0, h, _ => by simp at h
  | (a, v) :: l, n + 1, hn, h => by
    have ih := readAttrs_text (r := r) (l := l) (n := n) (by simpa using hn) fun x hx => h x (List.mem_cons_of_mem _ hx)
    obtain ⟨h1, h2, h3⟩ := h (a, v) (List.mem_cons_self ..)
    dsimp only at h1 h2 h3
    have e : attrsText ((a, v) :: l) ++ '>' :: r =
        ' ' :: (a ++ '=' :: ('"' :: (v.text ++ '"' :: (attrsText l ++ '>' :: r)))) := by
      simp [attrsText, List.append_assoc]
    obtain ⟨e1, e2⟩ := while_append (p := nameChar) (c := '=') (by decide) ('"' :: (v.text ++ '"' :: (attrsText l ++ '>' :: r)))
      (List.all_eq_true.1 h2)
    obtain ⟨e3, e4⟩ := while_append (p := fun c => decide (c ≠ '"')) (c := '"') (by decide) (attrsText l ++ '>' :: r) (a := v.text)
      fun x hx => by simpa using (plain_not h3 hx).1
    have hlt : '<' ∉ v.text := fun h => (plain_not h3 h).2.1 rfl
    have hamp : '&' ∉ v.text := fun h => (plain_not h3 h).2.2.1 rfl
    rw [e]
    unfold readAttrs
    simp only [e1, e2, e3, e4]
    rw [if_neg (by simp [h1, hlt]), unrefer_plain hamp, ih]
    rfl

/-- A text is read as these pieces, whatever follows. -/
def Reads (x : Text) (ps : List Piece) : Prop :=
  ps.length ≤ x.length ∧ ∀ n rest, pieces (n + ps.length) (x ++ rest) = (pieces n rest).map (ps ++ ·)

theorem reads_nil : Reads [] [] := ⟨Nat.le_refl _, fun n rest => by
  cases h : pieces n rest <;> simp [h]⟩

theorem reads_append {x y : Text} {ps qs : List Piece} (h1 : Reads x ps) (h2 : Reads y qs) : Reads (x ++ y) (ps ++ qs) := by
  refine ⟨by simp only [List.length_append]; have := h1.1; have := h2.1; omega, fun n rest => ?_⟩
  rw [List.length_append, List.append_assoc, show n + (ps.length + qs.length) = (n + qs.length) + ps.length by omega, h1.2, h2.2]
  cases pieces n rest <;> simp [List.append_assoc]

theorem reads_line {s : Text} (h : ∀ c ∈ s, c ≠ '<' ∧ c ≠ '&' ∧ c ≠ '\n') : Reads (s ++ ['\n']) [.line s] := by
  refine ⟨by simp, fun n rest => ?_⟩
  obtain ⟨e1, e2⟩ := while_append (p := fun c => decide (c ≠ '<' ∧ c ≠ '\n')) (c := '\n') (by decide) rest (a := s)
    fun x hx => by simpa using ⟨(h x hx).1, (h x hx).2.2⟩
  have hamp : '&' ∉ s := fun h' => (h _ h').2.1 rfl
  rw [List.append_assoc, List.singleton_append, List.length_singleton]
  have hne : ∀ r, s ++ '\n' :: rest ≠ '<' :: r := by
    intro r hr
    cases s with
    | nil => simp at hr
    | cons c s => exact (h c (List.mem_cons_self ..)).1 (List.cons.inj hr).1
  conv => lhs; unfold pieces
  split <;> rename_i he
  · simp at he
  · omega
  · exact absurd he (hne _)
  · exact absurd he (hne _)
  · exact absurd he (hne _)
  · exact absurd he (hne _)
  · rename_i m hm _ _ _ _
    have : m = n := by omega
    subst this
    simp only [e1, e2, unrefer_plain hamp]
    rfl

private theorem spaces_mem {c : Char} {n : Nat} (h : c ∈ spaces n) : c = ' ' := (List.mem_replicate.1 h).2

/-- The blanks before a tag. -/
def indentPieces (i : Nat) : List Piece := if i = 0 then [] else [.line (spaces i)]

theorem pieces_indent {i n : Nat} {r : Text} :
    pieces (n + (indentPieces i).length) (spaces i ++ '<' :: r) = (pieces n ('<' :: r)).map (indentPieces i ++ ·) := by
  unfold indentPieces
  split
  · rename_i h
    subst h
    cases hp : pieces n ('<' :: r) <;> simp [spaces, hp]
  · rename_i h
    obtain ⟨k, rfl⟩ : ∃ k, i = k + 1 := ⟨i - 1, by omega⟩
    obtain ⟨e1, e2⟩ := while_append (p := fun c => decide (c ≠ '<' ∧ c ≠ '\n')) (c := '<') (by decide) r (a := spaces (k + 1))
      fun x hx => by rw [spaces_mem hx]; decide
    have hamp : '&' ∉ spaces (k + 1) := fun h' => absurd (spaces_mem h') (by decide)
    have hs : spaces (k + 1) ++ '<' :: r = ' ' :: (spaces k ++ '<' :: r) := rfl
    rw [List.length_singleton]
    conv => lhs; unfold pieces
    split <;> rename_i he
    · simp [hs] at he
    · omega
    · rw [hs] at he; exact absurd (List.cons.inj he).1 (by decide)
    · rw [hs] at he; exact absurd (List.cons.inj he).1 (by decide)
    · rw [hs] at he; exact absurd (List.cons.inj he).1 (by decide)
    · rw [hs] at he; exact absurd (List.cons.inj he).1 (by decide)
    · rename_i m hm _ _ _ _
      have : m = n := by omega
      subst this
      simp only [e1, e2, unrefer_plain hamp]
      rfl

/-- Words made of the signs of names. -/
def Word (t : Text) : Prop := t ≠ [] ∧ t.all nameChar = true

theorem ename_word (e : EName) : Word e.text := by cases e <;> exact ⟨by decide, by decide⟩

theorem reads_start {i : Nat} {name : Text} {l : List (Text × Value)} (hn : Word name)
    (hl : ∀ x ∈ l, Word x.1 ∧ PlainValue x.2) (ho : (l.map Prod.fst).Nodup) :
    Reads (spaces i ++ '<' :: (name ++ (attrsText l ++ t!">\n")))
      (indentPieces i ++ [.start name (l.map fun x => (x.1, x.2.text)), .line []]) := by
  refine ⟨?_, fun n rest => ?_⟩
  · unfold indentPieces
    split <;> simp [spaces] <;> omega
  rw [List.append_assoc, List.length_append, List.cons_append,
    Nat.add_comm (indentPieces i).length, ← Nat.add_assoc]
  refine pieces_indent.trans ?_
  change Option.map _ (pieces (n + 2) _) = _
  have e : '<' :: (name ++ (attrsText l ++ t!">\n") ++ rest) = '<' :: (name ++ (attrsText l ++ '>' :: '\n' :: rest)) := by
    simp [List.append_assoc]
  rw [e]
  have hline : pieces (n + 1) ('\n' :: rest) = (pieces n rest).map ([.line []] ++ ·) := (reads_line (s := []) (by simp)).2 n rest
  obtain ⟨c, cs, rfl⟩ := List.exists_cons_of_ne_nil hn.1
  have hc : nameChar c = true := List.all_eq_true.1 hn.2 c (List.mem_cons_self ..)
  -- what follows the name is no sign of a name
  obtain ⟨d, ds, hd, hds⟩ : ∃ d ds, attrsText l ++ '>' :: '\n' :: rest = d :: ds ∧ nameChar d = false := by
    cases l with
    | nil => exact ⟨'>', '\n' :: rest, rfl, by decide⟩
    | cons x l => exact ⟨' ', _, rfl, by decide⟩
  obtain ⟨e1, e2⟩ := while_append (p := nameChar) (c := d) hds ds (a := c :: cs) (List.all_eq_true.1 hn.2)
  have hlen : l.length ≤ (c :: cs ++ (attrsText l ++ '>' :: '\n' :: rest)).length := by
    have : l.length ≤ (attrsText l).length := by
      clear hl ho hd e hds e1 e2
      induction l with
      | nil => exact Nat.zero_le _
      | cons x l ih =>
        have : attrsText (x :: l) = ' ' :: (x.1 ++ t!"=\"" ++ x.2.text ++ t!"\"") ++ attrsText l := rfl
        rw [this]
        simp only [List.length_cons, List.length_append]
        omega
    simp only [List.length_append, List.length_cons]
    omega
  have hattr := readAttrs_text (r := '\n' :: rest) hlen fun x hx => ⟨(hl x hx).1.1, (hl x hx).1.2, (hl x hx).2⟩
  conv => lhs; unfold pieces
  split <;> rename_i he
  · simp at he
  · omega
  · exact absurd ((List.cons.inj (List.cons.inj he).2).1 ▸ hc) (by decide)
  · exact absurd ((List.cons.inj (List.cons.inj he).2).1 ▸ hc) (by decide)
  · exact absurd ((List.cons.inj (List.cons.inj he).2).1 ▸ hc) (by decide)
  · rename_i m _ hm _ _ _
    have : m = n + 1 := by omega
    subst this
    have hr := (List.cons.inj he).2
    subst hr
    rw [← hd] at e1 e2
    rw [e1, e2, hattr]
    have hmap : ((l.map fun x => (x.1, x.2.text)).map Prod.fst) = l.map Prod.fst := by
      rw [List.map_map]; rfl
    simp only [bind, Option.bind]
    rw [if_neg (by rw [hmap]; simp [ho]), hline]
    cases pieces n rest <;> simp
  · rename_i h1 h2
    exact absurd rfl (he _)

theorem reads_stop {i : Nat} {name : Text} (hn : Word name) :
    Reads (spaces i ++ (t!"</" ++ (name ++ t!">\n"))) (indentPieces i ++ [.stop name, .line []]) := by
  refine ⟨?_, fun n rest => ?_⟩
  · unfold indentPieces
    split <;> simp [spaces] <;> omega
  rw [List.append_assoc, List.length_append,
    Nat.add_comm (indentPieces i).length, ← Nat.add_assoc]
  refine pieces_indent.trans ?_
  obtain ⟨e1, e2⟩ := while_append (p := nameChar) (c := '>') (by decide) ('\n' :: rest) (List.all_eq_true.1 hn.2)
  have hline : pieces (n + 1) ('\n' :: rest) = (pieces n rest).map ([.line []] ++ ·) := (reads_line (s := []) (by simp)).2 n rest
  have e : pieces (n + 2) ('<' :: ('/' :: (name ++ t!">\n") ++ rest)) = ((pieces n rest).map ([.line []] ++ ·)).map (.stop name :: ·) := by
    rw [show '/' :: (name ++ t!">\n") ++ rest = '/' :: (name ++ '>' :: '\n' :: rest) by simp [List.append_assoc]]
    conv => lhs; unfold pieces
    simp only [e1, e2, hline]
  refine (congrArg _ e).trans ?_
  cases pieces n rest <;> simp

mutual
/-- The pieces of the text of a tree. -/
def treePieces (i : Nat) : Tree → List Piece
  | .node e ks => (indentPieces i ++ [.start e.name.text (e.attrs.map fun x => (x.1, x.2.text)), .line []]) ++
      (e.data.map (fun d => .line (spaces (i + 2) ++ d)) ++ (allPieces (i + 2) ks ++
        (indentPieces i ++ [.stop e.name.text, .line []])))
def allPieces (i : Nat) : List Tree → List Piece
  | [] => []
  | t :: ts => treePieces i t ++ allPieces i ts
end

theorem attr_word {e : EName} {n : Text} (h : (attlist e n).isSome = true) : Word n := by
  unfold attlist baseAttlist at h
  by_cases h1 : n = t!"x" ∨ n = t!"y" ∨ n = t!"width" ∨ n = t!"height"
  · rcases h1 with rfl | rfl | rfl | rfl <;> exact ⟨by decide, by decide⟩
  rw [if_neg h1] at h
  by_cases h2 : n = t!"image"
  · subst h2; exact ⟨by decide, by decide⟩
  rw [if_neg h2] at h
  by_cases h3 : n = t!"flip"
  · subst h3; exact ⟨by decide, by decide⟩
  rw [if_neg h3] at h
  by_cases h4 : n = t!"background" ∨ n = t!"color"
  · rcases h4 with rfl | rfl <;> exact ⟨by decide, by decide⟩
  rw [if_neg h4] at h
  by_cases h5 : n = t!"font"
  · subst h5; exact ⟨by decide, by decide⟩
  rw [if_neg h5] at h
  by_cases h6 : n = t!"mag"
  · subst h6; exact ⟨by decide, by decide⟩
  rw [if_neg h6] at h
  unfold extraAttlist at h
  dsimp only at h
  split at h
  all_goals
    repeat' split at h
  all_goals first
    | (simp at h; done)
    | (rename_i he; subst he; exact ⟨by decide, by decide⟩)
    | (rename_i he; rcases he with rfl | rfl <;> exact ⟨by decide, by decide⟩)
    | (rename_i he; rcases he with rfl | rfl | rfl | rfl <;> exact ⟨by decide, by decide⟩)

theorem reads_data {i : Nat} : ∀ {l : List Text}, (∀ s ∈ l, PlainLine s) →
    Reads (l.flatMap fun d => spaces i ++ (d ++ ['\n'])) (l.map fun d => .line (spaces i ++ d))
  | [], _ => reads_nil
  | s :: l, h => by
    rw [List.flatMap_cons, List.map_cons, ← List.singleton_append, ← List.append_assoc]
    refine reads_append (reads_line fun c hc => ?_) (reads_data fun x hx => h x (List.mem_cons_of_mem _ hx))
    rcases List.mem_append.1 hc with hc | hc
    · rw [spaces_mem hc]; decide
    · have := plain_not (h s (List.mem_cons_self ..)).plain hc
      exact ⟨this.2.1, this.2.2.1, this.2.2.2⟩

theorem formatAll_eq (i : Nat) : ∀ ts : List Tree, formatAll i ts = ts.flatMap (Tree.format i)
  | [] => by simp [formatAll]
  | t :: ts => by simp [formatAll, formatAll_eq i ts]

theorem allPieces_eq (i : Nat) : ∀ ts : List Tree, allPieces i ts = ts.flatMap (treePieces i)
  | [] => by simp [allPieces]
  | t :: ts => by simp [allPieces, allPieces_eq i ts]

theorem describeAll_eq : ∀ ts : List Tree, describeAll ts = ts.map describe
  | [] => by simp [describeAll]
  | t :: ts => by simp [describeAll, describeAll_eq ts]

theorem reads_flatMap {f : Tree → Text} {g : Tree → List Piece} : ∀ {ts : List Tree}, (∀ t ∈ ts, Reads (f t) (g t)) →
    Reads (ts.flatMap f) (ts.flatMap g)
  | [], _ => reads_nil
  | t :: ts, h => by
    rw [List.flatMap_cons, List.flatMap_cons]
    exact reads_append (h t (List.mem_cons_self ..)) (reads_flatMap fun x hx => h x (List.mem_cons_of_mem _ hx))

theorem reads_tree {t : Tree} (h : Sound PlainValue PlainLine t) : ∀ i, Reads (t.format i) (treePieces i t) := by
  induction h with
  | node e ks hp _ ih =>
    intro i
    unfold treePieces Tree.format
    rw [formatAll_eq, allPieces_eq]
    have key := reads_append (reads_start (i := i) (ename_word e.name)
      (fun x hx => ⟨attr_word (hp.attrs x hx).1, (hp.attrs x hx).2⟩) hp.once)
      (reads_append (reads_data (i := i + 2) hp.data) (reads_append (reads_flatMap fun k hk => ih k hk (i + 2))
        (reads_stop (i := i) (ename_word e.name))))
    rw [show (spaces i ++ '<' :: (e.name.text ++ (attrsText e.attrs ++ t!">\n"))) ++
        (e.data.flatMap (fun d => spaces (i + 2) ++ (d ++ ['\n'])) ++ (ks.flatMap (Tree.format (i + 2)) ++
          (spaces i ++ (t!"</" ++ (e.name.text ++ t!">\n"))))) =
        spaces i ++ '<' :: (e.name.text ++ (attrsText e.attrs ++ (t!">\n" ++
          (e.data.flatMap (fun d => spaces (i + 2) ++ (d ++ ['\n'])) ++ (ks.flatMap (Tree.format (i + 2)) ++
            (spaces i ++ (t!"</" ++ (e.name.text ++ t!">\n")))))))) by simp [List.append_assoc]] at key
    exact key

/-! ### Putting the pieces together -/

theorem trim_spaces (n : Nat) : trim (spaces n) = [] := by
  have : ∀ n, (spaces n).dropWhile (· = ' ') = [] := by
    intro n
    induction n with
    | zero => rfl
    | succ n ih => exact ih
  unfold trim
  rw [this]
  rfl

theorem trim_line {s : Text} (h : PlainLine s) (n : Nat) : trim (spaces n ++ s) = s := by
  have h1 : (spaces n ++ s).dropWhile (· = ' ') = s := by
    induction n with
    | zero =>
      cases s with
      | nil => rfl
      | cons c s =>
        have : c ≠ ' ' := fun e => h.first (by simp [e])
        simp [spaces, this]
    | succ n ih => exact ih
  have h2 : s.reverse.dropWhile (· = ' ') = s.reverse := by
    cases hr : s.reverse with
    | nil => rfl
    | cons c r =>
      have : c ≠ ' ' := by
        intro e
        apply h.last
        rw [← List.head?_reverse, hr, e]; simp
      simp [this]
  unfold trim
  rw [h1, h2, List.reverse_reverse]

theorem addLine_blank (n : Nat) (x : Xml) : x.addLine (spaces n) = x := by
  cases x
  unfold Xml.addLine
  simp only [trim_spaces n, if_true]

theorem assemble_indent (i : Nat) (x : Xml) (st : List Xml) (r : List Piece) :
    assemble (x :: st) (indentPieces i ++ r) = assemble (x :: st) r := by
  unfold indentPieces
  split
  · rfl
  · rw [List.singleton_append]
    cases st <;> (conv => lhs; unfold assemble) <;> rw [addLine_blank]

theorem assemble_line (s : Text) (x : Xml) (st : List Xml) (r : List Piece) :
    assemble (x :: st) (.line s :: r) = assemble (x.addLine s :: st) r := by
  cases st <;> (conv => lhs; unfold assemble)

theorem assemble_data {n : Text} {a : List (Text × Text)} {k : List Xml} {i : Nat} {st : List Xml} {r : List Piece} :
    ∀ {d l : List Text}, (∀ s ∈ d, PlainLine s) →
    assemble (.node n a l k :: st) (d.map (fun s => .line (spaces i ++ s)) ++ r) = assemble (.node n a (l ++ d) k :: st) r
  | [], l, _ => by simp
  | s :: d, l, h => by
    have hs := h s (List.mem_cons_self ..)
    rw [List.map_cons, List.cons_append, assemble_line]
    unfold Xml.addLine
    simp only [trim_line hs, if_neg hs.filled]
    rw [assemble_data fun x hx => h x (List.mem_cons_of_mem _ hx), List.append_assoc]
    rfl

theorem assemble_kids {i : Nat} {r : List Piece} {st : List Xml} {n : Text} {a : List (Text × Text)} {l : List Text} :
    ∀ {ts : List Tree} {k : List Xml},
    (∀ t ∈ ts, ∀ (x : Xml) (st : List Xml) (r : List Piece),
      assemble (x :: st) (treePieces i t ++ r) = assemble (x.addKid (describe t) :: st) r) →
    assemble (.node n a l k :: st) (ts.flatMap (treePieces i) ++ r) = assemble (.node n a l (k ++ ts.map describe) :: st) r
  | [], k, _ => by simp
  | t :: ts, k, h => by
    rw [List.flatMap_cons, List.append_assoc, h t (List.mem_cons_self ..)]
    unfold Xml.addKid
    rw [assemble_kids fun t' ht' => h t' (List.mem_cons_of_mem _ ht'), List.append_assoc]
    rfl

theorem assemble_tree {t : Tree} (h : Sound PlainValue PlainLine t) : ∀ (i : Nat) (x : Xml) (st : List Xml) (r : List Piece),
    assemble (x :: st) (treePieces i t ++ r) = assemble (x.addKid (describe t) :: st) r := by
  induction h with
  | node e ks hp _ ih =>
    intro i x st r
    unfold treePieces describe
    rw [allPieces_eq, describeAll_eq]
    simp only [List.append_assoc, List.cons_append, List.nil_append]
    rw [assemble_indent]
    conv => lhs; unfold assemble
    rw [assemble_line, show (Xml.node e.name.text (e.attrs.map fun x => (x.1, x.2.text)) [] []).addLine [] = _ from
      addLine_blank 0 _, assemble_data hp.data, assemble_kids fun t ht => ih t ht (i + 2), assemble_indent]
    conv => lhs; unfold assemble
    refine (if_pos rfl).trans ?_
    rw [assemble_line, show ∀ y : Xml, y.addLine [] = y from addLine_blank 0]
    rfl

/-- The outermost element. -/
theorem assemble_root {t : Tree} (h : Sound PlainValue PlainLine t) : assemble [] (treePieces 0 t) = some (describe t) := by
  cases h with
  | node e ks hp hk =>
    unfold treePieces describe
    rw [allPieces_eq, describeAll_eq]
    simp only [indentPieces, if_true, List.cons_append, List.nil_append]
    conv => lhs; unfold assemble
    rw [assemble_line, show (Xml.node e.name.text (e.attrs.map fun x => (x.1, x.2.text)) [] []).addLine [] = _ from
      addLine_blank 0 _, assemble_data hp.data, assemble_kids fun t ht => assemble_tree (hk t ht) 2]
    conv => lhs; unfold assemble
    rw [if_pos ⟨rfl, rfl⟩]
    rfl

theorem reads_prolog (n : Nat) (r : Text) : pieces (n + 4) (decXml ++ (decDoctype ++ r)) =
    (pieces n r).map ([.line [], .line []] ++ ·) := by
  have h1 : ∀ m, pieces (m + 1) ('\n' :: r) = (pieces m r).map ([.line []] ++ ·) := fun m =>
    (reads_line (s := []) (by simp)).2 m r
  have h2 : pieces (n + 3) ('\n' :: (decDoctype ++ r)) = (pieces (n + 2) (decDoctype ++ r)).map ([.line []] ++ ·) :=
    (reads_line (s := []) (by simp)).2 (n + 2) (decDoctype ++ r)
  have h3 : pieces (n + 4) (decXml ++ (decDoctype ++ r)) = pieces (n + 3) ('\n' :: (decDoctype ++ r)) := rfl
  have h4 : pieces (n + 2) (decDoctype ++ r) = pieces (n + 1) ('\n' :: r) := rfl
  rw [h3, h2, h4, h1]
  cases pieces n r <;> rfl

/-- A tree with plain values and lines is read as it is. -/
theorem readXml_tree {t : Tree} (h : Sound PlainValue PlainLine t) : readXml t.xmlText = some (describe t) := by
  obtain ⟨hl, hr⟩ := reads_tree h 0
  have hlen : t.xmlText.length = ((t.format 0).length - (treePieces 0 t).length + (decXml.length + decDoctype.length - 4) +
      (treePieces 0 t).length) + 4 := by
    unfold Tree.xmlText
    rw [List.length_append, List.length_append]
    have : 4 ≤ decXml.length + decDoctype.length := by decide
    omega
  unfold readXml
  rw [hlen]
  unfold Tree.xmlText
  rw [reads_prolog, ← List.append_nil (t.format 0), hr]
  have : ∀ m, pieces m [] = some [] := fun m => by cases m <;> rfl
  rw [this]
  simp only [Option.map_some, Option.bind_some, List.append_nil, List.cons_append, List.nil_append]
  conv => lhs; unfold assemble
  rw [if_pos (show trim [] = [] from rfl)]
  conv => lhs; unfold assemble
  rw [if_pos (show trim [] = [] from rfl)]
  exact assemble_root h

end Bglib
