import Verif.Spec.TestWriter
namespace Bglib
open Spec TestWriter

/-! ### lines of a filled template -/

/-- The parts of a template cut into lines. -/
def pieceLines : List Piece → List (List Piece)
  | [] => [[]]
  | p :: r =>
    if p = .sign '\n' then [] :: pieceLines r
    else match pieceLines r with
      | [] => [[p]]
      | l :: ls => (p :: l) :: ls

/-- The text of a line, with nothing for what has no value. -/
def ink (env : Text → Option Text) : List Piece → Text
  | [] => []
  | .sign c :: ps => c :: ink env ps
  | .name n :: ps => (env n).getD [] ++ ink env ps
  | .bad :: ps => ink env ps

/-- All names have values, and values have no ends of lines. -/
def Filled (env : Text → Option Text) (ps : List Piece) : Prop :=
  ∀ p ∈ ps, match p with
    | .sign _ => True
    | .name n => ∃ v, env n = some v ∧ '\n' ∉ v
    | .bad => False

theorem fill_ok {env : Text → Option Text} : ∀ {ps : List Piece}, Filled env ps → fill env ps = .ok (ink env ps) := by
  intro ps
  induction ps with
  | nil => intro _; rfl
  | cons p ps ih =>
    intro h
    have h1 := h p (by simp)
    have h2 := ih (fun q hq => h q (by simp [hq]))
    cases p with
    | sign c => rw [fill, h2]; rfl
    | name n =>
      obtain ⟨v, hv, _⟩ := h1
      rw [fill, hv, h2, ink, hv]; rfl
    | bad => exact h1.elim

theorem pieceLines_ne (ps : List Piece) : pieceLines ps ≠ [] := by
  cases ps with
  | nil => simp [pieceLines]
  | cons p ps => rw [pieceLines]; split; · simp
                 split <;> simp

theorem splitNl_ne (t : Text) : splitNl t ≠ [] := by
  cases t with
  | nil => simp [splitNl]
  | cons p ps => rw [splitNl]; split; · simp
                 split <;> simp

theorem splitNl_plain {v : Text} (hv : '\n' ∉ v) (t : Text) (l : Text) (ls : List Text) (h : splitNl t = l :: ls) :
    splitNl (v ++ t) = (v ++ l) :: ls := by
  induction v with
  | nil => exact h
  | cons c v ih =>
    simp only [List.mem_cons, not_or] at hv
    rw [List.cons_append, splitNl, if_neg (Ne.symm hv.1), ih hv.2]
    rfl

theorem splitNl_ink {env : Text → Option Text} : ∀ {ps : List Piece}, Filled env ps →
    splitNl (ink env ps) = (pieceLines ps).map (ink env) := by
  intro ps
  induction ps with
  | nil => intro _; rfl
  | cons p ps ih =>
    intro h
    have h1 := h p (by simp)
    have h2 := ih (fun q hq => h q (by simp [hq]))
    cases hl : pieceLines ps with
    | nil => exact absurd hl (pieceLines_ne ps)
    | cons l ls =>
      rw [hl, List.map_cons] at h2
      cases p with
      | sign c =>
        by_cases hc : c = '\n'
        · subst hc
          rw [pieceLines, if_pos rfl, hl, ink, splitNl, if_pos rfl, h2]
          rfl
        · rw [pieceLines, if_neg (by simpa using hc), hl, ink, splitNl, if_neg hc, h2]
          rfl
      | name n =>
        obtain ⟨v, hv, hn⟩ := h1
        rw [pieceLines, if_neg (by simp), hl, ink, hv, Option.getD_some, splitNl_plain hn _ _ _ h2]
        simp only [List.map_cons, ink, hv, Option.getD_some]
      | bad => exact h1.elim

/-- Text that ends with its last line empty goes on on a new line. -/
theorem splitNl_append {a : Text} : ∀ {ls : List Text}, splitNl a = ls ++ [[]] → ∀ b, splitNl (a ++ b) = ls ++ splitNl b := by
  induction a with
  | nil =>
    intro ls h b
    have : ls = [] := by
      rw [splitNl] at h
      cases ls with
      | nil => rfl
      | cons x xs => simp at h
    subst this
    rfl
  | cons c a ih =>
    intro ls h b
    rw [splitNl] at h
    rw [List.cons_append, splitNl]
    by_cases hc : c = '\n'
    · rw [if_pos hc] at h ⊢
      cases ls with
      | nil => simp [splitNl_ne] at h
      | cons x xs =>
        rw [List.cons_append, List.cons.injEq] at h
        rw [ih h.2, ← h.1]
        rfl
    · rw [if_neg hc] at h ⊢
      cases hs : splitNl a with
      | nil => exact absurd hs (splitNl_ne a)
      | cons y ys =>
        rw [hs] at h
        cases ls with
        | nil => simp at h
        | cons x xs =>
          rw [List.cons_append, List.cons.injEq] at h
          rw [ih (ls := y :: xs) (by rw [hs, h.2]; rfl), List.cons_append]
          simp only
          rw [← h.1]
          rfl

/-! ### reading lines -/

theorem between_some (first last t : Text) : between first last (first ++ (t ++ last)) = some t := by
  unfold between
  rw [List.drop_left]
  simp

theorem collect_append (a b : List Said) (m p) (h : ∀ x ∈ a, x = .other) : collect m p (a ++ b) = collect m p b := by
  induction a with
  | nil => rfl
  | cons x a ih =>
    have := h x (by simp)
    subst this
    rw [List.cons_append]
    cases m <;> cases p <;> exact ih (fun y hy => h y (by simp [hy]))

/-- A line without names says nothing, or it does not begin with a blank. -/
def Mute (l : List Piece) : Bool :=
  (l.all (fun p => match p with | .sign _ => true | _ => false) && decide (said (ink (fun _ => none) l) = .other)) ||
    match l with
    | .sign c :: _ => decide (c ≠ ' ')
    | _ => false

theorem ink_signs (env env' : Text → Option Text) : ∀ l : List Piece,
    l.all (fun p => match p with | .sign _ => true | _ => false) = true → ink env l = ink env' l := by
  intro l
  induction l with
  | nil => intro _; rfl
  | cons p l ih =>
    intro h
    simp only [List.all_cons, Bool.and_eq_true] at h
    cases p with
    | sign c => rw [ink, ink, ih h.2]
    | name n => exact absurd h.1 (by simp)
    | bad => exact absurd h.1 (by simp)

theorem between_head {c d : Char} (h : d ≠ c) (first last t : Text) : between (c :: first) last (d :: t) = none := by
  unfold between
  rw [List.isPrefixOf, beq_false_of_ne (Ne.symm h)]
  rfl

theorem said_mute (env : Text → Option Text) {l : List Piece} (h : Mute l = true) : said (ink env l) = .other := by
  unfold Mute at h
  rw [Bool.or_eq_true, Bool.and_eq_true] at h
  rcases h with ⟨h1, h2⟩ | h
  · rw [ink_signs env (fun _ => none) l h1]
    exact of_decide_eq_true h2
  · cases l with
    | nil => simp at h
    | cons p l =>
      cases p with
      | sign c =>
        have hc : c ≠ ' ' := by simpa using h
        rw [ink]
        unfold said
        rw [between_head hc, between_head hc, between_head hc, between_head hc, between_head hc]
      | name n => simp at h
      | bad => simp at h

/-- The lines of a template: it ends with the end of a line, no dollar sign is left over, and its names. -/
structure Sheet (t : Text) (names : List Text) (ls : List (List Piece)) : Prop where
  lines : pieceLines (pieces t) = ls ++ [[]]
  names : ∀ p ∈ pieces t, p ≠ .bad ∧ ∀ n, p = .name n → n ∈ names

theorem Sheet.filled {t : Text} {names : List Text} {ls} (h : Sheet t names ls) {env : Text → Option Text}
    (he : ∀ n ∈ names, ∃ v, env n = some v ∧ '\n' ∉ v) : Filled env (pieces t) := by
  intro p hp
  obtain ⟨h1, h2⟩ := h.names p hp
  cases p with
  | sign c => trivial
  | name n => exact he n (h2 n rfl)
  | bad => exact h1 rfl

theorem Sheet.substitute {t : Text} {names : List Text} {ls} (h : Sheet t names ls) {env : Text → Option Text}
    (he : ∀ n ∈ names, ∃ v, env n = some v ∧ '\n' ∉ v) :
    ∃ r, substitute env t = .ok r ∧ splitNl r = ls.map (ink env) ++ [[]] := by
  refine ⟨_, fill_ok (h.filled he), ?_⟩
  rw [splitNl_ink (h.filled he), h.lines, List.map_append]
  rfl

theorem css_env {css : Text} (h : '\n' ∉ css) : ∀ n ∈ [t!"css"], ∃ v, cssEnv css n = some v ∧ '\n' ∉ v := by
  intro n hn
  simp only [List.mem_singleton] at hn
  subst hn
  exact ⟨css, rfl, h⟩

/-- The lines before the end of the last one. -/
def sheetLines (t : Text) : List (List Piece) := (pieceLines (pieces t)).dropLast

theorem sheet_of (t : Text) (names : List Text)
    (h1 : decide ((pieceLines (pieces t)).getLast? = some []) = true)
    (h2 : (pieces t).all (fun p => match p with | .sign _ => true | .name n => decide (n ∈ names) | .bad => false) = true) :
    Sheet t names (sheetLines t) := by
  constructor
  · have h1 := of_decide_eq_true h1
    rw [List.getLast?_eq_some_iff] at h1
    obtain ⟨ys, hy⟩ := h1
    unfold sheetLines
    rw [hy, List.dropLast_concat]
  · intro p hp
    have := List.all_eq_true.1 h2 p hp
    cases p with
    | sign c => exact ⟨by simp, fun n h => by cases h⟩
    | name m => exact ⟨by simp, fun n h => by cases h; exact of_decide_eq_true this⟩
    | bad => cases this

theorem header_sheet : Sheet headerTemplate [t!"css"] (sheetLines headerTemplate) :=
  sheet_of _ _ (by decide +kernel) (by decide +kernel)
theorem helper_sheet : Sheet helperTemplate [t!"css"] (sheetLines helperTemplate) :=
  sheet_of _ _ (by decide +kernel) (by decide +kernel)
theorem klass_sheet : Sheet klassTemplate [t!"css"] (sheetLines klassTemplate) :=
  sheet_of _ _ (by decide +kernel) (by decide +kernel)
theorem footer_sheet : Sheet footerTemplate [t!"css"] (sheetLines footerTemplate) :=
  sheet_of _ _ (by decide +kernel) (by decide +kernel)
theorem method_sheet : Sheet methodTemplate [t!"name", t!"pid", t!"mid"] (sheetLines methodTemplate) :=
  sheet_of _ _ (by decide +kernel) (by decide +kernel)

theorem header_mute : (sheetLines headerTemplate).all Mute = true := by decide +kernel
theorem helper_mute : (sheetLines helperTemplate).all Mute = true := by decide +kernel
theorem klass_mute : (sheetLines klassTemplate).all Mute = true := by decide +kernel
theorem footer_mute : (sheetLines footerTemplate).all Mute = true := by decide +kernel

theorem mute_lines (env : Text → Option Text) {ls : List (List Piece)} (h : ls.all Mute = true) :
    ∀ x ∈ (ls.map (ink env)).map said, x = .other := by
  intro x hx
  simp only [List.mem_map] at hx
  obtain ⟨_, ⟨l, hl, rfl⟩, rfl⟩ := hx
  exact said_mute env (List.all_eq_true.1 h l hl)

set_option maxRecDepth 10000 in
theorem method_lines (name pid mid : Text) : (sheetLines methodTemplate).map (ink (methodEnv name pid mid)) =
    [t!"  def " ++ (name ++ t!"_tree_test(self):"),
     t!"    \"\"\" tree test for " ++ (name ++ (t!" pid='" ++ (pid ++ (t!"', mid='" ++ (mid ++ t!"'\"\"\""))))),
     t!"    load(self.b, pid='" ++ (pid ++ (t!"', mid='" ++ (mid ++ t!"')"))),
     t!"    tree = make_tree(self.b)",
     t!"    self.assertEqual(str(tree), get_xml('" ++ (name ++ t!"'), 'xml mismatch')"),
     t!"    ",
     t!"  def " ++ (name ++ t!"_image_test(self):"),
     t!"    \"\"\" image test for " ++ (name ++ (t!" pid='" ++ (pid ++ (t!"', mid='" ++ (mid ++ t!"'\"\"\""))))),
     t!"    load(self.b, pid='" ++ (pid ++ (t!"', mid='" ++ (mid ++ t!"')"))),
     t!"    image = draw.draw(self.b, (1000, 800))",
     t!"    ans = get_image('" ++ (name ++ t!"')"),
     t!"    self.assertEqual(image.tostring(), ans.tostring(), 'image mismatch')",
     t!"    "] := by rfl

theorem said_tree (n : Text) : said (t!"  def " ++ (n ++ t!"_tree_test(self):")) = .method .tree n := by
  unfold said
  rw [between_some]

theorem said_image (n : Text) : said (t!"  def " ++ (n ++ t!"_image_test(self):")) = .method .image n := by
  unfold said
  rw [between_some]
  have : between t!"  def " t!"_tree_test(self):" (t!"  def " ++ (n ++ t!"_image_test(self):")) = none := by
    unfold between
    rw [List.drop_left]
    simp
  rw [this]

theorem said_doc (t : Text) : said (t!"    \"\"\"" ++ t) = .other := rfl

theorem said_load (p m : Text) (h : '\'' ∉ p) : said (t!"    load(self.b, pid='" ++ (p ++ (t!"', mid='" ++ (m ++ t!"')")))) = .load p m := by
  have h1 : between t!"    load(self.b, pid='" t!"')" (t!"    load(self.b, pid='" ++ (p ++ (t!"', mid='" ++ (m ++ t!"')")))) =
      some (p ++ (t!"', mid='" ++ m)) := by
    have := between_some t!"    load(self.b, pid='" t!"')" (p ++ (t!"', mid='" ++ m))
    simpa only [List.append_assoc] using this
  have h2 : ∀ last, between t!"  def " last (t!"    load(self.b, pid='" ++ (p ++ (t!"', mid='" ++ (m ++ t!"')")))) = none :=
    fun _ => rfl
  unfold said
  rw [h2, h2, h1]
  have h3 : (p ++ (t!"', mid='" ++ m)).takeWhile (· ≠ '\'') = p := by
    rw [List.takeWhile_append_of_pos (fun c hc => by simp; rintro rfl; exact h hc)]
    simp
  have h4 : (p ++ (t!"', mid='" ++ m)).dropWhile (· ≠ '\'') = t!"', mid='" ++ m := by
    rw [List.dropWhile_append_of_pos (fun c hc => by simp; rintro rfl; exact h hc)]
    simp
  simp only [h3, h4]
  rw [List.drop_left]

theorem said_xml (n : Text) : said (t!"    self.assertEqual(str(tree), get_xml('" ++ (n ++ t!"'), 'xml mismatch')")) = .file n := by
  have h2 : ∀ last, between t!"  def " last (t!"    self.assertEqual(str(tree), get_xml('" ++ (n ++ t!"'), 'xml mismatch')")) = none :=
    fun _ => rfl
  have h3 : ∀ last, between t!"    load(self.b, pid='" last (t!"    self.assertEqual(str(tree), get_xml('" ++ (n ++ t!"'), 'xml mismatch')")) = none :=
    fun _ => rfl
  unfold said
  rw [h2, h2, h3, between_some]

theorem said_png (n : Text) : said (t!"    ans = get_image('" ++ (n ++ t!"')")) = .file n := by
  have h2 : ∀ last, between t!"  def " last (t!"    ans = get_image('" ++ (n ++ t!"')")) = none := fun _ => rfl
  have h3 : ∀ last, between t!"    load(self.b, pid='" last (t!"    ans = get_image('" ++ (n ++ t!"')")) = none := fun _ => rfl
  have h4 : ∀ last, between t!"    self.assertEqual(str(tree), get_xml('" last (t!"    ans = get_image('" ++ (n ++ t!"')")) = none :=
    fun _ => rfl
  unfold said
  rw [h2, h2, h3, h4, between_some]

theorem method_said (name pid mid : Text) (h : '\'' ∉ pid) (m p) (rest : List Said) :
    collect m p (((sheetLines methodTemplate).map (ink (methodEnv name pid mid))).map said ++ rest) =
      bothTests (name, pid, mid) ++ collect none none rest := by
  rw [method_lines]
  simp only [List.map_cons, List.map_nil, said_tree, said_image, said_load _ _ h, said_xml, said_png,
    show said t!"    tree = make_tree(self.b)" = .other by decide +kernel,
    show said t!"    image = draw.draw(self.b, (1000, 800))" = .other by decide +kernel,
    show said t!"    self.assertEqual(image.tostring(), ans.tostring(), 'image mismatch')" = .other by decide +kernel,
    show said t!"    " = .other by decide +kernel]
  rw [show ∀ t, said (t!"    \"\"\" tree test for " ++ t) = .other from fun _ => rfl,
    show ∀ t, said (t!"    \"\"\" image test for " ++ t) = .other from fun _ => rfl]
  rfl

end Bglib
