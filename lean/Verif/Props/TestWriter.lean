import Verif.Lemmas.TestWriter
import Verif.Props.Mag
import Verif.Props.Theme
/-
C88: the tests written for the styles.  How a file of tests is read is in Verif/Spec/TestWriter.lean.
-/
namespace Bglib
open Spec TestWriter Img

theorem methods_read (ts : List (Text × Text × Text)) (h : ∀ t ∈ ts, '\n' ∉ t.1 ∧ OneLine t.2.1 ∧ '\n' ∉ t.2.2) :
    ∃ r ls, makeMethods ts = .ok r ∧ splitNl r = ls ++ [[]] ∧
      ∀ m p rest, collect m p (ls.map said ++ rest) = ts.flatMap bothTests ++
        (if ts = [] then collect m p rest else collect none none rest) := by
  induction ts with
  | nil => exact ⟨[], [], rfl, rfl, fun _ _ _ => rfl⟩
  | cons t ts ih =>
    obtain ⟨name, pid, mid⟩ := t
    obtain ⟨h1, h2, h3⟩ := h (name, pid, mid) (by simp)
    obtain ⟨r1, e1, e2⟩ := method_sheet.substitute (env := methodEnv name pid mid) (by
      intro n hn
      simp only [List.mem_cons, List.not_mem_nil, or_false] at hn
      rcases hn with rfl | rfl | rfl
      · exact ⟨name, rfl, h1⟩
      · exact ⟨pid, rfl, h2.1⟩
      · exact ⟨mid, rfl, h3⟩)
    obtain ⟨r2, ls, f1, f2, f3⟩ := ih (fun t ht => h t (by simp [ht]))
    refine ⟨r1 ++ r2, (sheetLines methodTemplate).map (ink (methodEnv name pid mid)) ++ ls, ?_, ?_, ?_⟩
    · unfold makeMethods makeMethod
      rw [e1, f1]
      rfl
    · rw [splitNl_append e2, f2, List.append_assoc]
    · intro m p rest
      rw [List.map_append, List.append_assoc, method_said name pid mid h2.2, f3, ite_self,
        List.flatMap_cons, List.append_assoc, if_neg (List.cons_ne_nil _ _)]

/-- **C88**: the file written for a style has exactly two tests for each listed position, one of the tree and one of the
picture; each loads the IDs of the position and compares with the file of its name.  `ts` is the list of positions in
any order. -/
theorem C88_written (css : Text) (ts : List (Text × Text × Text)) (hc : '\n' ∉ css)
    (h : ∀ t ∈ ts, '\n' ∉ t.1 ∧ OneLine t.2.1 ∧ '\n' ∉ t.2.2) :
    ∃ file, write ts css = .ok file ∧ testsOf file = ts.flatMap bothTests := by
  obtain ⟨r1, a1, a2⟩ := header_sheet.substitute (css_env hc)
  obtain ⟨r2, b1, b2⟩ := helper_sheet.substitute (css_env hc)
  obtain ⟨r3, c1, c2⟩ := klass_sheet.substitute (css_env hc)
  obtain ⟨r4, ls, d1, d2, d3⟩ := methods_read ts h
  obtain ⟨r5, e1, e2⟩ := footer_sheet.substitute (css_env hc)
  have hl : splitNl (r1 ++ r2 ++ r3 ++ r4 ++ r5) = (sheetLines headerTemplate).map (ink (cssEnv css)) ++
      ((sheetLines helperTemplate).map (ink (cssEnv css)) ++ ((sheetLines klassTemplate).map (ink (cssEnv css)) ++
        (ls ++ ((sheetLines footerTemplate).map (ink (cssEnv css)) ++ [[]])))) := by
    rw [List.append_assoc, List.append_assoc, List.append_assoc, splitNl_append a2, splitNl_append b2,
      splitNl_append c2, splitNl_append d2, e2]
  refine ⟨r1 ++ r2 ++ r3 ++ r4 ++ r5, ?_, ?_⟩
  · unfold write makeHeader makeHelper makeClass makeFooter
    simp only [a1, b1, c1, d1, e1, bind, Except.bind, pure, Except.pure]
    rw [if_neg]
    intro e
    rw [e] at hl
    have := congrArg List.length hl
    have hk : 1 ≤ (sheetLines headerTemplate).length := by decide +kernel
    simp [splitNl] at this
    omega
  · unfold testsOf
    rw [hl]
    simp only [List.map_append]
    rw [collect_append _ _ _ _ (mute_lines _ header_mute),
      collect_append _ _ _ _ (mute_lines _ helper_mute), collect_append _ _ _ _ (mute_lines _ klass_mute), d3]
    have : collect none none (((sheetLines footerTemplate).map (ink (cssEnv css))).map said ++ [[]].map said) = [] := by
      rw [collect_append _ _ _ _ (mute_lines _ footer_mute)]
      decide +kernel
    rw [this, ite_self, List.append_nil]

private theorem class_quiet (a b : List Text) (h : ∀ l ∈ a, Spec.between t!"class " t!":" l = none) :
    classMethods none (a ++ b) = classMethods none b := by
  induction a with
  | nil => rfl
  | cons l a ih =>
    rw [List.cons_append, classMethods, h l (by simp)]
    exact ih (fun x hx => h x (by simp [hx]))

/-- The line does not begin with the letter of the word for classes. -/
private def NoC (l : List Piece) : Bool :=
  match l with
  | [] => true
  | .sign c :: _ => decide (c ≠ 'c')
  | _ => false

/-- The line has no names and does not begin a class. -/
private def NoClass (l : List Piece) : Bool :=
  NoC l || (l.all (fun p => match p with | .sign _ => true | _ => false) &&
    decide (Spec.between t!"class " t!":" (ink (fun _ => none) l) = none))

private theorem noClass (env : Text → Option Text) {ls : List (List Piece)} (h : ls.all NoClass = true) :
    ∀ l ∈ ls.map (ink env), Spec.between t!"class " t!":" l = none := by
  intro l hl
  obtain ⟨x, hx, rfl⟩ := List.mem_map.1 hl
  have := List.all_eq_true.1 h x hx
  unfold NoClass at this
  rw [Bool.or_eq_true, Bool.and_eq_true] at this
  rcases this with h | ⟨h1, h2⟩
  · cases x with
    | nil => rfl
    | cons p r =>
      cases p with
      | sign c => rw [ink]; exact between_head (by simpa [NoC] using h) _ _ _
      | name n => simp [NoC] at h
      | bad => simp [NoC] at h
  · rw [ink_signs env (fun _ => none) x h1]
    exact of_decide_eq_true h2

private theorem class_def (k n : Text) (ls : List Text) :
    classMethods (some k) ((t!"  def " ++ (n ++ t!"(self):")) :: ls) = (k, n) :: classMethods (some k) ls := by
  rw [classMethods, show Spec.between t!"class " t!":" (t!"  def " ++ (n ++ t!"(self):")) = none from
    between_head (by decide) _ _ _, between_some]

private theorem class_body (k t : Text) (ls : List Text) :
    classMethods (some k) ((' ' :: ' ' :: ' ' :: t) :: ls) = classMethods (some k) ls := by
  rw [classMethods, between_head (by decide)]
  have : Spec.between t!"  def " t!"(self):" (' ' :: ' ' :: ' ' :: t) = none := by
    unfold Spec.between
    simp
  rw [this]
  exact if_pos (Or.inr rfl)

private theorem methods_lines (ts : List (Text × Text × Text)) (h : ∀ t ∈ ts, '\n' ∉ t.1 ∧ '\n' ∉ t.2.1 ∧ '\n' ∉ t.2.2)
    (k : Text) : ∃ r ls, makeMethods ts = .ok r ∧ splitNl r = ls ++ [[]] ∧ ∀ rest,
      classMethods (some k) (ls ++ rest) = (ts.flatMap testNames).map (fun n => (k, n)) ++ classMethods (some k) rest := by
  induction ts with
  | nil => exact ⟨[], [], rfl, rfl, fun _ => rfl⟩
  | cons t ts ih =>
    obtain ⟨name, pid, mid⟩ := t
    obtain ⟨h1, h2, h3⟩ := h (name, pid, mid) (by simp)
    obtain ⟨r1, e1, e2⟩ := method_sheet.substitute (env := methodEnv name pid mid) (by
      intro n hn
      simp only [List.mem_cons, List.not_mem_nil, or_false] at hn
      rcases hn with rfl | rfl | rfl
      · exact ⟨name, rfl, h1⟩
      · exact ⟨pid, rfl, h2⟩
      · exact ⟨mid, rfl, h3⟩)
    obtain ⟨r2, ls, f1, f2, f3⟩ := ih (fun t ht => h t (by simp [ht]))
    refine ⟨r1 ++ r2, (sheetLines methodTemplate).map (ink (methodEnv name pid mid)) ++ ls, ?_, ?_, ?_⟩
    · unfold makeMethods makeMethod
      rw [e1, f1]
      rfl
    · rw [splitNl_append e2, f2, List.append_assoc]
    · intro rest
      rw [method_lines, List.append_assoc]
      have d1 : t!"  def " ++ (name ++ t!"_tree_test(self):") = t!"  def " ++ ((name ++ t!"_tree_test") ++ t!"(self):") := by
        rw [List.append_assoc]; rfl
      have d2 : t!"  def " ++ (name ++ t!"_image_test(self):") = t!"  def " ++ ((name ++ t!"_image_test") ++ t!"(self):") := by
        rw [List.append_assoc]; rfl
      rw [d1, d2, List.cons_append, class_def]
      iterate 5 rw [List.cons_append]; erw [class_body]
      rw [List.cons_append, class_def]
      iterate 6 rw [List.cons_append]; erw [class_body]
      rw [List.nil_append, f3]
      rfl

set_option maxRecDepth 10000 in
private theorem klass_lines (css : Text) : (sheetLines klassTemplate).map (ink (cssEnv css)) =
    [t!"class theTest(unittest.TestCase):", t!"  def setUp(self):",
     t!"    self.b = bglib.model.boardeditor.BoardEditor()", t!"    ", t!"  def tearDown(self):", t!"    pass"] := by rfl

set_option maxRecDepth 10000 in
private theorem footer_lines (css : Text) : (sheetLines footerTemplate).map (ink (cssEnv css)) =
    t!"if __name__ == '__main__':" :: ((sheetLines footerTemplate).map (ink (cssEnv css))).drop 1 := by rfl

/-- **C88**: the tests are methods of one class of tests, `theTest`, besides its `setUp` and `tearDown`, and the file has no
other methods in classes. -/
theorem C88_class (css : Text) (ts : List (Text × Text × Text)) (hc : '\n' ∉ css)
    (h : ∀ t ∈ ts, '\n' ∉ t.1 ∧ '\n' ∉ t.2.1 ∧ '\n' ∉ t.2.2) :
    ∃ file, write ts css = .ok file ∧ classMethods none (splitNl file) =
      ([t!"setUp", t!"tearDown"] ++ ts.flatMap testNames).map (fun n => (t!"theTest(unittest.TestCase)", n)) := by
  obtain ⟨r1, a1, a2⟩ := header_sheet.substitute (css_env hc)
  obtain ⟨r2, b1, b2⟩ := helper_sheet.substitute (css_env hc)
  obtain ⟨r3, c1, c2⟩ := klass_sheet.substitute (css_env hc)
  obtain ⟨r4, ls, d1, d2, d3⟩ := methods_lines ts h t!"theTest(unittest.TestCase)"
  obtain ⟨r5, e1, e2⟩ := footer_sheet.substitute (css_env hc)
  have hl : splitNl (r1 ++ r2 ++ r3 ++ r4 ++ r5) = (sheetLines headerTemplate).map (ink (cssEnv css)) ++
      ((sheetLines helperTemplate).map (ink (cssEnv css)) ++ ((sheetLines klassTemplate).map (ink (cssEnv css)) ++
        (ls ++ ((sheetLines footerTemplate).map (ink (cssEnv css)) ++ [[]])))) := by
    rw [List.append_assoc, List.append_assoc, List.append_assoc, splitNl_append a2, splitNl_append b2,
      splitNl_append c2, splitNl_append d2, e2]
  refine ⟨r1 ++ r2 ++ r3 ++ r4 ++ r5, ?_, ?_⟩
  · unfold write makeHeader makeHelper makeClass makeFooter
    simp only [a1, b1, c1, d1, e1, bind, Except.bind, pure, Except.pure]
    rw [if_neg]
    intro e
    rw [e] at hl
    have := congrArg List.length hl
    have hk : 1 ≤ (sheetLines headerTemplate).length := by decide +kernel
    simp [splitNl] at this
    omega
  · rw [hl, class_quiet _ _ (noClass _ (by decide +kernel)), class_quiet _ _ (noClass _ (by decide +kernel)), klass_lines]
    have f := noClass (cssEnv css) (ls := sheetLines footerTemplate) (by decide +kernel)
    have hf : classMethods (some t!"theTest(unittest.TestCase)")
        ((sheetLines footerTemplate).map (ink (cssEnv css)) ++ [[]]) = [] := by
      rw [footer_lines] at f ⊢
      rw [List.cons_append, classMethods, f _ (by simp)]
      have : Spec.between t!"  def " t!"(self):" t!"if __name__ == '__main__':" = none := by decide +kernel
      rw [this]
      change (if _ then _ else classMethods none _) = _
      rw [if_neg (by decide), class_quiet _ _ (fun l hl => f l (List.mem_cons_of_mem _ hl))]
      rfl
    rw [List.cons_append, classMethods, show Spec.between t!"class " t!":" t!"class theTest(unittest.TestCase):" =
      some t!"theTest(unittest.TestCase)" by decide +kernel]
    have s1 := class_def t!"theTest(unittest.TestCase)" t!"setUp"
    have s2 := class_def t!"theTest(unittest.TestCase)" t!"tearDown"
    simp only [List.cons_append]
    erw [s1, class_body, class_body, s2, class_body, List.nil_append, d3, hf]
    simp

example : ∃ file, write [(t!"a", t!"p", t!"m")] t!"matrix" = .ok file ∧
    (classMethods none (splitNl file)).map (·.2) = [t!"setUp", t!"tearDown", t!"a_tree_test", t!"a_image_test"] := by
  obtain ⟨file, h1, h2⟩ := C88_class t!"matrix" [(t!"a", t!"p", t!"m")] (by decide) (by decide)
  exact ⟨file, h1, by rw [h2]; decide +kernel⟩

/-- The list of the program is one of these, and the names in it are different. -/
theorem C88_listed : (∀ t ∈ tests, '\n' ∉ t.1 ∧ OneLine t.2.1 ∧ '\n' ∉ t.2.2) ∧ (tests.map (·.1)).Nodup := by
  unfold OneLine
  decide +kernel

example : ∃ file, write tests t!"matrix" = .ok file ∧ (testsOf file).length = 48 := by
  obtain ⟨file, h1, h2⟩ := C88_written t!"matrix" tests (by decide) C88_listed.1
  exact ⟨file, h1, by rw [h2]; decide +kernel⟩

/-- Templates: names in braces and without, the sign for a dollar, a name that is not given and a dollar alone. -/
example : let env : Text → Option Text := fun n => if n = t!"Zz_09" then some t!"x" else none
    substitute env t!"a$Zz_09 ${Zz_09}0$$" = .ok t!"ax x0$" ∧ substitute env t!"$Zz_0" = .error .keyError ∧
    substitute env t!"$9" = .error .valueError ∧ substitute env t!"${Zz_09" = .error .valueError := by decide

/-- The listed positions that can be drawn. -/
def TestWriter.drawn : List (Text × Text × Text) := tests.filter (fun t => decide (t.1 ≠ t!"v"))

theorem drawn_boards : ∀ t ∈ drawn,
    (gnubgDecode {} t.2.1 t.2.2).err = none ∧
      let b := (gnubgDecode {} t.2.1 t.2.2).board
      (b.position.1.length = 25 ∧ b.position.2.length = 25 ∧ (b.cubeOwner = 0 ∨ b.cubeOwner = 1 ∨ b.cubeOwner = 3) ∧
        (b.onAction = 0 ∨ b.onAction = 1) ∧ (b.onInnerAction = 0 ∨ b.onInnerAction = 1)) ∧
      (b.rolled ≠ (0, 0) ∨ b.onInnerAction = b.onAction ∨ b.doubled = true ∨ 1 ≤ b.resignOffer ∧ b.resignOffer ≤ 3) ∧
      (b.rolled = (0, 0) ∨ 1 ≤ b.rolled.1 ∧ b.rolled.1 ≤ 6 ∧ 1 ≤ b.rolled.2 ∧ b.rolled.2 ≤ 6) := by
  decide +kernel

/-- **C88**, partial: what the tests of all listed positions but one do goes through with every shipped style: the IDs
are read and the picture is made at the size of the tests. -/
theorem C88_drawn_partial (s : Text × List Text) (hs : s ∈ shipped) (t : Text × Text × Text) (ht : t ∈ drawn) :
    (gnubgDecode {} t.2.1 t.2.2).err = none ∧ ∃ rules, loadCss s.1 s.2 = .ok rules ∧
      ∃ ops, drawSized rules (1000, 800) (gnubgDecode {} t.2.1 t.2.2).board = .ok ops := by
  obtain ⟨h0, h1, h2, h3⟩ := drawn_boards t ht
  obtain ⟨rules, hl, hd⟩ := C69_draws s hs
  have hz : SizeOk 1000 ∧ SizeOk 800 := by unfold SizeOk; decide
  refine ⟨h0, rules, hl, (hd _ 1000 800 ⟨h1.1, h1.2.1, h1.2.2.1, h1.2.2.2⟩ h2 h3 hz.1 hz.2).1 ?_⟩
  have e1 : SharpSize 1000 800 1000 800 := by decide +kernel
  have e2 : SharpSize 341 232 1000 800 := by decide +kernel
  have e3 : SharpSize 341 262 1000 800 := by decide +kernel
  unfold boardSize
  split
  · exact e1
  · split
    · exact e2
    · exact e3

example : drawn.length = 23 ∧ shipped.length = 8 := by decide +kernel

/-- **C88** is false of the remaining position: its tests fail with every style, and so does the program that writes the
files the tests compare with. -/
theorem C88_false_position : (t!"v", t!"4HPhASjgc/ABMA", t!"MAmgAAAAAAAA") ∈ tests ∧
    (gnubgDecode {} t!"4HPhASjgc/ABMA" t!"MAmgAAAAAAAA").err = none ∧
    ∀ (rules : List Rule) (scale : Int → Int),
      drawBoard rules scale (gnubgDecode {} t!"4HPhASjgc/ABMA" t!"MAmgAAAAAAAA").board = .error .assertion :=
  ⟨by decide +kernel, C67_false_test⟩

/-- Two of the listed positions are the same. -/
theorem C88_false_twice : ∃ t ∈ tests, ∃ t' ∈ tests, t.1 ≠ t'.1 ∧ t.2 = t'.2 :=
  ⟨(t!"d", t!"4HPiASHgc/ABMA", t!"UQn1AAAAAAAA"), by decide +kernel,
    (t!"k", t!"4HPiASHgc/ABMA", t!"UQn1AAAAAAAA"), by decide +kernel, by decide, rfl⟩

/-- **C88** is false of the tests of the program itself: the test of the beginning of the file fails, a line that is
written is missing in it; and a comparison of lines passes though lines are missing in the first text. -/
theorem C88_false_own : headerTest = .error .assertion ∧
    (∃ h, makeHeader t!"matrix" = .ok h ∧
      splitNl h = (splitNl expectedHeader).take 8 ++ t!"import bglib.model.boardeditor" :: (splitNl expectedHeader).drop 8) ∧
    ∃ a b, assertLinesEqual a b = .ok () ∧ splitNl a ≠ splitNl b ∧ assertLinesEqual b a ≠ .ok () := by
  refine ⟨by decide +kernel, ?_, t!"a", t!"a\nb", by decide, by decide, by decide⟩
  have key : (makeHeader t!"matrix").map splitNl =
      .ok ((splitNl expectedHeader).take 8 ++ t!"import bglib.model.boardeditor" :: (splitNl expectedHeader).drop 8) := by decide +kernel
  cases e : makeHeader t!"matrix" with
  | error x => rw [e] at key; cases key
  | ok h => rw [e] at key; exact ⟨h, rfl, Except.ok.inj key⟩

end Bglib
