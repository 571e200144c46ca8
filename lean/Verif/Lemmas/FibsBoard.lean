import Verif.Lemmas.Monster
import Verif.Spec.FibsBoard
import Verif.Props.Fibs
/-
Helper lemmas for C90: which patterns a board line matches, and in which order they are tried.
-/
namespace Bglib
open Spec

/-- The items of the pattern of board lines. -/
def boardItems : List Item :=
  [.set ⟨false, [('b', 'b')]⟩ .one, .set ⟨false, [('o', 'o')]⟩ .one, .set ⟨false, [('a', 'a')]⟩ .one,
    .set ⟨false, [('r', 'r')]⟩ .one, .set ⟨false, [('d', 'd')]⟩ .one, .set ⟨false, [(':', ':')]⟩ .one,
    .set ⟨false, [('a', 'z'), ('A', 'Z'), ('_', '_'), ('<', '<'), ('>', '>')]⟩ .plus, .set ⟨false, [(':', ':')]⟩ .one,
    .set ⟨false, [('a', 'z'), ('A', 'Z'), ('_', '_'), ('<', '<'), ('>', '>')]⟩ .plus, .set ⟨false, [(':', ':')]⟩ .one,
    .set ⟨false, [('0', '9'), (':', ':'), ('-', '-')]⟩ .plus, .eol]

theorem board_compiles : compileRe t!"^board:[a-zA-Z_<>]+:[a-zA-Z_<>]+:[0-9:\\-]+$" = some boardItems := by decide

theorem bad_compiles : compileRe t!"^board:" = some (t!"board:".map fun c => Item.set ⟨false, [(c, c)]⟩ .one) := by
  decide

theorem board_mem : (t!"FIBS_Board", [t!"^board:[a-zA-Z_<>]+:[a-zA-Z_<>]+:[0-9:\\-]+$"]) ∈ runTable := by
  rw [runTable_eq]; decide +kernel

theorem bad_mem : (t!"FIBS_BAD_Board", [t!"^board:"]) ∈ runTable := by
  rw [runTable_eq]; decide +kernel

theorem possible_board : possible t!"board:" = [t!"FIBS_Board", t!"FIBS_BAD_Board"] := by decide +kernel

theorem set_single (c x : Char) : (CharSet.mk false [(c, c)]).mem x = true ↔ x = c := by
  simp only [CharSet.mem, List.any_cons, List.any_nil, Bool.or_false, Bool.bne_false, Bool.and_eq_true,
    decide_eq_true_eq]
  exact ⟨fun h => Char.le_antisymm h.2 h.1, fun h => h ▸ ⟨Char.le_refl _, Char.le_refl _⟩⟩

theorem name_set (x : Char) : (CharSet.mk false [('a', 'z'), ('A', 'Z'), ('_', '_'), ('<', '<'), ('>', '>')]).mem x =
    nameSign x := by
  have e : ∀ c : Char, (decide (c ≤ x) && decide (x ≤ c)) = (x == c) := by
    intro c
    rw [Bool.eq_iff_iff]
    simp only [Bool.and_eq_true, decide_eq_true_eq, beq_iff_eq]
    exact ⟨fun h => Char.le_antisymm h.2 h.1, fun h => h ▸ ⟨Char.le_refl _, Char.le_refl _⟩⟩
  simp only [CharSet.mem, List.any_cons, List.any_nil, Bool.or_false, Bool.bne_false, e, nameSign, Bool.or_assoc]

/-- What stands behind the names. -/
def numberSign (c : Char) : Bool := (CharSet.mk false [('0', '9'), (':', ':'), ('-', '-')]).mem c

theorem matches_board (s : Text) : matchesName runTable s t!"FIBS_Board" = true ↔
    ∃ you him r e, IsName you ∧ IsName him ∧ r ≠ [] ∧ (∀ c ∈ r, numberSign c = true) ∧ (e = [] ∨ e = ['\n']) ∧
      s = t!"board:" ++ (you ++ (t!":" ++ (him ++ (t!":" ++ (r ++ e))))) := by
  rw [show matchesName runTable s t!"FIBS_Board" = _ from matches_of_mem .run _ _ board_mem s]
  simp only [List.any_cons, List.any_nil, Bool.or_false, reMatch, board_compiles]
  rw [matchItems_iff]
  unfold boardItems
  constructor
  · intro h
    have one : ∀ {c : Char} {is : List Item} {s : Text}, Reads (.set ⟨false, [(c, c)]⟩ .one :: is) s →
        ∃ t, s = c :: t ∧ Reads is t := by
      intro c is s h
      cases h with
      | one _ x _ t hx ht => exact ⟨t, by rw [(set_single c x).1 hx], ht⟩
    have plus : ∀ {cs : CharSet} {is : List Item} {s : Text}, Reads (.set cs .plus :: is) s →
        ∃ p t, s = p ++ t ∧ p ≠ [] ∧ (∀ x ∈ p, cs.mem x = true) ∧ Reads is t := by
      intro cs is s h
      generalize hs : s = s' at h
      cases h with
      | plus _ p _ t hne hp ht => exact ⟨p, t, rfl, hne, hp, ht⟩
    obtain ⟨s1, rfl, h1⟩ := one h
    obtain ⟨s2, rfl, h2⟩ := one h1
    obtain ⟨s3, rfl, h3⟩ := one h2
    obtain ⟨s4, rfl, h4⟩ := one h3
    obtain ⟨s5, rfl, h5⟩ := one h4
    obtain ⟨s6, rfl, h6⟩ := one h5
    obtain ⟨you, s7, rfl, y1, y2, h7⟩ := plus h6
    obtain ⟨s8, rfl, h8⟩ := one h7
    obtain ⟨him, s9, rfl, z1, z2, h9⟩ := plus h8
    obtain ⟨s10, rfl, h10⟩ := one h9
    obtain ⟨r, e, rfl, r1, r2, h11⟩ := plus h10
    have he : e = [] ∨ e = ['\n'] := by cases h11 with | eol _ _ h _ => exact h
    exact ⟨you, him, r, e, ⟨y1, fun c hc => by rw [← name_set]; exact y2 c hc⟩,
      ⟨z1, fun c hc => by rw [← name_set]; exact z2 c hc⟩, r1, r2, he, rfl⟩
  · rintro ⟨you, him, r, e, ⟨y1, y2⟩, ⟨z1, z2⟩, r1, r2, he, rfl⟩
    have o : ∀ c : Char, (CharSet.mk false [(c, c)]).mem c = true := fun c => (set_single c c).2 rfl
    exact .one _ _ _ _ (o _) <| .one _ _ _ _ (o _) <| .one _ _ _ _ (o _) <| .one _ _ _ _ (o _) <|
      .one _ _ _ _ (o _) <| .one _ _ _ _ (o _) <| .plus _ you _ _ y1 (fun c hc => by rw [name_set]; exact y2 c hc) <|
      .one _ _ _ _ (o _) <| .plus _ him _ _ z1 (fun c hc => by rw [name_set]; exact z2 c hc) <|
      .one _ _ _ _ (o _) <| .plus _ r _ _ r1 r2 <| .eol _ _ he (.done _)

theorem matches_bad (s : Text) : matchesName runTable s t!"FIBS_BAD_Board" = true ↔ LikeBoard s := by
  rw [show matchesName runTable s t!"FIBS_BAD_Board" = _ from matches_of_mem .run _ _ bad_mem s]
  simp only [List.any_cons, List.any_nil, Bool.or_false, reMatch, bad_compiles]
  have lit : ∀ (w : Text) (s : Text),
      matchItems (w.map fun c => Item.set ⟨false, [(c, c)]⟩ .one) s = true ↔ ∃ r, s = w ++ r := by
    intro w
    induction w with
    | nil => exact fun s => ⟨fun _ => ⟨s, rfl⟩, fun _ => by simp [matchItems]⟩
    | cons c w ih =>
      intro s
      cases s with
      | nil => simp [matchItems]
      | cons x s =>
        simp only [List.map_cons, matchItems, Bool.and_eq_true, set_single, ih, List.cons_append, List.cons.injEq]
        constructor
        · rintro ⟨rfl, r, rfl⟩; exact ⟨r, rfl, rfl⟩
        · rintro ⟨r, rfl, rfl⟩; exact ⟨rfl, r, rfl⟩
  exact lit _ s

theorem pyStr_signs (n : Int) : pyStr n ≠ [] ∧ ∀ c ∈ pyStr n, numberSign c = true := by
  have hd : ∀ m : Nat, ∀ c ∈ decimal m, numberSign c = true := by
    intro m c hm
    obtain ⟨d, hd, rfl⟩ := decimal_digits hm
    have : ∀ d, d < 10 → numberSign (digitChar d) = true := by decide
    exact this d hd
  unfold pyStr
  split
  · refine ⟨by simp, fun c hc => ?_⟩
    rcases List.mem_cons.1 hc with rfl | h
    · decide
    · exact hd _ c h
  · exact ⟨decimal_ne_nil _, hd _⟩

theorem joinColon_signs (l : List Int) (hl : l ≠ []) :
    joinColon (l.map pyStr) ≠ [] ∧ ∀ c ∈ joinColon (l.map pyStr), numberSign c = true := by
  induction l with
  | nil => exact absurd rfl hl
  | cons n l ih =>
    cases l with
    | nil => exact pyStr_signs n
    | cons k l =>
      obtain ⟨_, h2⟩ := ih (by simp)
      obtain ⟨g1, g2⟩ := pyStr_signs n
      simp only [List.map_cons, joinColon] at h2 ⊢
      refine ⟨by simp [g1], fun c hc => ?_⟩
      simp only [List.mem_append, List.mem_cons] at hc
      rcases hc with hc | rfl | hc
      · exact g2 c hc
      · decide
      · exact h2 c hc

theorem line_matches (s : Text) (h : BoardLine s) : matchesName runTable s t!"FIBS_Board" = true ∧ LikeBoard s := by
  obtain ⟨you, him, nums, hy, hh, hn, rfl⟩ := h
  obtain ⟨j1, j2⟩ := joinColon_signs nums hn
  have e : fibsLine you him nums = t!"board:" ++ (you ++ (t!":" ++ (him ++ (t!":" ++ (joinColon (nums.map pyStr) ++ []))))) := by
    cases nums with
    | nil => exact absurd rfl hn
    | cons n l => simp [fibsLine, joinColon]
  exact ⟨(matches_board _).2 ⟨you, him, _, [], hy, hh, j1, j2, .inl rfl, e⟩, ⟨_, e⟩⟩

theorem find_before {P : Text → Bool} {a b : Text} {l : List Text} (h : Before a b l) (ha : P a = true)
    (hP : ∀ x ∈ l, P x = true → x = a ∨ x = b) : l.find? P = some a := by
  obtain ⟨u, v, rfl, hb⟩ := h
  have : ∀ w, b ∉ w → (∀ x ∈ w, P x = true → x = a ∨ x = b) → (w ++ a :: v).find? P = some a := by
    intro w
    induction w with
    | nil => intro _ _; simp [ha]
    | cons x w ih =>
      intro hb hw
      by_cases hx : P x = true
      · rcases hw x (by simp) hx with rfl | rfl
        · simp [hx]
        · exact absurd (by simp) hb
      · rw [List.cons_append, List.find?_cons_of_neg hx]
        exact ih (fun h => hb (by simp [h])) (fun y hy => hw y (by simp [hy]))
  exact this u hb (fun x hx => hP x (by simp [hx]))

/-- Of the patterns of the run phase only two match something like a board line. -/
theorem like_names (s n : Text) (hs : LikeBoard s) (hn : n ∈ runTable.map (·.1))
    (hm : matchesName runTable s n = true) : n = t!"FIBS_Board" ∨ n = t!"FIBS_BAD_Board" := by
  obtain ⟨r, rfl⟩ := hs
  have := possible_sound t!"board:" r n hn hm
  rw [possible_board] at this
  simpa using this

theorem names_of (order : Phase → List Text) (ho : ValidOrder order) (m : Monster) (hi : MInv m) (n : Text)
    (hn : n ∈ m.lastMatch ++ order m.phase) : n ∈ (tableOf m.phase).map (·.1) := by
  rcases List.mem_append.1 hn with hn | hn
  · exact hi.names n hn
  · exact (ho m.phase).mem_iff.1 hn

theorem answer_board (order : Phase → List Text) (ho : ValidOrder order) (m : Monster) (hi : MInv m)
    (hp : m.phase = .run) (s : Text) (hs : LikeBoard s) :
    (matchesName runTable s t!"FIBS_Board" = true →
      Before t!"FIBS_Board" t!"FIBS_BAD_Board" (m.lastMatch ++ order m.phase) →
      firstMatch m order s = some t!"FIBS_Board") ∧
    (Before t!"FIBS_BAD_Board" t!"FIBS_Board" (m.lastMatch ++ order m.phase) →
      firstMatch m order s = some t!"FIBS_BAD_Board") ∧
    (matchesName runTable s t!"FIBS_Board" = false → firstMatch m order s = some t!"FIBS_BAD_Board") ∧
    (firstMatch m order s = some t!"FIBS_Board" ∨ firstMatch m order s = some t!"FIBS_BAD_Board") := by
  have hb := (matches_bad s).2 hs
  have key : ∀ x ∈ m.lastMatch ++ order m.phase, matchesName (tableOf m.phase) s x = true →
      x = t!"FIBS_Board" ∨ x = t!"FIBS_BAD_Board" := by
    intro x hx hm
    have := names_of order ho m hi x hx
    rw [hp] at this hm
    exact like_names s x hs this hm
  have hbad : t!"FIBS_BAD_Board" ∈ runTable.map (·.1) := List.mem_map.2 ⟨_, bad_mem, rfl⟩
  have last : firstMatch m order s = some t!"FIBS_Board" ∨ firstMatch m order s = some t!"FIBS_BAD_Board" := by
    cases hf : firstMatch m order s with
    | none =>
      have := firstMatch_none m order s ho hf t!"FIBS_BAD_Board" (by rw [hp]; exact hbad)
      rw [hp, show tableOf .run = runTable from rfl, hb] at this
      cases this
    | some n =>
      have h1 := List.mem_of_find?_eq_some hf
      have h2 := List.find?_some hf
      rcases key n h1 h2 with rfl | rfl
      · exact .inl rfl
      · exact .inr rfl
  refine ⟨fun h1 h2 => find_before h2 (by rw [hp]; exact h1) key, fun h2 => ?_, fun h1 => ?_, last⟩
  · exact find_before h2 (by rw [hp]; exact hb) (fun x hx hm => (key x hx hm).symm)
  · rcases last with h | h
    · have := List.find?_some h
      rw [hp, show tableOf .run = runTable from rfl, h1] at this
      cases this
    · exact h

theorem before_append {a b : Text} {l k : List Text} (h : b ∉ l) (hk : Before a b k) : Before a b (l ++ k) := by
  obtain ⟨u, v, rfl, hu⟩ := hk
  exact ⟨l ++ u, v, by simp, by simp [h, hu]⟩

theorem like_ne_nil {s : Text} (h : LikeBoard s) : s ≠ [] := by
  obtain ⟨r, rfl⟩ := h; simp

theorem lastMatch_step (order : Phase → List Text) (m : Monster) (s n : Text)
    (h : n ∈ (m.makeCookie order s).2.lastMatch) :
    n ∈ m.lastMatch ∨ (m.makeCookie order s).1 = .ok n ∨ ∃ ph, n ∈ initialLast ph := by
  have next : ∀ (k : Monster) (c : Text), n ∈ (k.nextState c).lastMatch → n ∈ k.lastMatch ∨ ∃ ph, n ∈ initialLast ph := by
    intro k c hk
    unfold Monster.nextState at hk
    revert hk
    split <;> split <;> intro hk
    all_goals first | exact .inl hk | exact .inr ⟨.login, hk⟩ | exact .inr ⟨.motd, hk⟩ | exact .inr ⟨.run, hk⟩
  unfold Monster.makeCookie at h ⊢
  unfold Monster.stateCookie at h ⊢
  by_cases h0 : m.phase = .run ∧ s = []
  · rw [if_pos h0] at h ⊢
    rcases next _ _ h with h | h
    · exact .inl h
    · exact .inr (.inr h)
  · rw [if_neg h0] at h ⊢
    cases ht : tryNames (tableOf m.phase) s (m.lastMatch ++ order m.phase) m.cache with
    | mk r cache =>
      rw [ht] at h
      cases r with
      | error e => exact .inl h
      | ok o =>
        cases o with
        | none =>
          rcases next _ _ h with h | h
          · exact .inl h
          · exact .inr (.inr h)
        | some name =>
          rcases next _ _ h with h | h
          · rcases List.mem_cons.1 h with rfl | h
            · exact .inr (.inl rfl)
            · exact .inl (List.mem_of_mem_erase h)
          · exact .inr (.inr h)

/-- A damaged board line never came: it is not among the last matches. -/
theorem clean_step (order : Phase → List Text) (ho : ValidOrder order)
    (hb : Before t!"FIBS_Board" t!"FIBS_BAD_Board" (order .run)) (m : Monster) (hi : MInv m)
    (hc : t!"FIBS_BAD_Board" ∉ m.lastMatch) (s : Text) (hs : BoardLine s ∨ ¬ LikeBoard s) :
    MInv (m.makeCookie order s).2 ∧ t!"FIBS_BAD_Board" ∉ (m.makeCookie order s).2.lastMatch := by
  obtain ⟨m', h1, h2, h3, h4⟩ := makeCookie_spec m order s ho hi
  refine ⟨by rw [h1]; exact h2, fun hmem => ?_⟩
  rcases lastMatch_step order m s _ hmem with h | h | ⟨ph, h⟩
  · exact hc h
  · rw [h1] at h
    have ha : answer m order s = t!"FIBS_BAD_Board" := Except.ok.inj h
    by_cases hrun : m.phase = .run
    · have hne : s ≠ [] := by
        rintro rfl
        rw [answer, if_pos ⟨hrun, rfl⟩] at ha
        exact absurd ha (by decide)
      have hf : firstMatch m order s = some t!"FIBS_BAD_Board" := by
        rw [answer, if_neg (fun h => hne h.2)] at ha
        cases hfm : firstMatch m order s with
        | none => rw [hfm, hrun] at ha; exact absurd ha (by decide)
        | some n => rw [hfm] at ha; exact congrArg some ha
      have hlike : LikeBoard s := by
        have := List.find?_some hf
        rw [hrun] at this
        exact (matches_bad s).1 this
      rcases hs with hs | hs
      · have := (answer_board order ho m hi hrun s hlike).1 (line_matches s hs).1
          (before_append hc (by rw [hrun]; exact hb))
        rw [this] at hf
        exact absurd (Option.some.inj hf) (by decide)
      · exact hs hlike
    · have hne : ¬ (m.phase = .run ∧ s = []) := fun h => hrun h.1
      rw [answer, if_neg hne] at ha
      cases hfm : firstMatch m order s with
      | none =>
        rw [hfm] at ha
        cases hp : m.phase with
        | run => exact hrun hp
        | login => rw [hp] at ha; exact absurd ha (by decide)
        | motd => rw [hp] at ha; exact absurd ha (by decide)
      | some n =>
        rw [hfm] at ha
        have hn := (answer_some m order s ho hi n hfm).1
        rw [show n = t!"FIBS_BAD_Board" from ha] at hn
        cases hp : m.phase with
        | run => exact hrun hp
        | login => rw [hp] at hn; revert hn; decide +kernel
        | motd => rw [hp] at hn; revert hn; decide +kernel
  · cases ph <;> revert h <;> decide

theorem clean_after (order : Phase → List Text) (ho : ValidOrder order)
    (hb : Before t!"FIBS_Board" t!"FIBS_BAD_Board" (order .run)) (msgs : List Text)
    (hs : ∀ s ∈ msgs, BoardLine s ∨ ¬ LikeBoard s) (m : Monster) (hi : MInv m)
    (hc : t!"FIBS_BAD_Board" ∉ m.lastMatch) :
    MInv (m.after order msgs) ∧ t!"FIBS_BAD_Board" ∉ (m.after order msgs).lastMatch := by
  induction msgs generalizing m with
  | nil => exact ⟨hi, hc⟩
  | cons s msgs ih =>
    obtain ⟨h1, h2⟩ := clean_step order ho hb m hi hc s (hs s (by simp))
    exact ih (fun x hx => hs x (by simp [hx])) _ h1 h2

/-- With the pattern of damaged lines first, no line is ever taken for a good one. -/
theorem damaged_step (order : Phase → List Text) (ho : ValidOrder order)
    (hb : Before t!"FIBS_BAD_Board" t!"FIBS_Board" (order .run)) (m : Monster) (hi : MInv m)
    (hc : t!"FIBS_Board" ∉ m.lastMatch) (s : Text) :
    MInv (m.makeCookie order s).2 ∧ t!"FIBS_Board" ∉ (m.makeCookie order s).2.lastMatch := by
  obtain ⟨m', h1, h2, h3, h4⟩ := makeCookie_spec m order s ho hi
  refine ⟨by rw [h1]; exact h2, fun hmem => ?_⟩
  rcases lastMatch_step order m s _ hmem with h | h | ⟨ph, h⟩
  · exact hc h
  · rw [h1] at h
    have ha : answer m order s = t!"FIBS_Board" := Except.ok.inj h
    by_cases hrun : m.phase = .run
    · have hne : s ≠ [] := by
        rintro rfl
        rw [answer, if_pos ⟨hrun, rfl⟩] at ha
        exact absurd ha (by decide)
      have hf : firstMatch m order s = some t!"FIBS_Board" := by
        rw [answer, if_neg (fun h => hne h.2)] at ha
        cases hfm : firstMatch m order s with
        | none => rw [hfm, hrun] at ha; exact absurd ha (by decide)
        | some n => rw [hfm] at ha; exact congrArg some ha
      have hlike : LikeBoard s := by
        have := List.find?_some hf
        rw [hrun] at this
        obtain ⟨_, _, _, _, _, _, _, _, _, rfl⟩ := (matches_board s).1 this
        exact ⟨_, rfl⟩
      have := (answer_board order ho m hi hrun s hlike).2.1 (before_append hc (by rw [hrun]; exact hb))
      rw [this] at hf
      exact absurd (Option.some.inj hf) (by decide)
    · have hne : ¬ (m.phase = .run ∧ s = []) := fun h => hrun h.1
      rw [answer, if_neg hne] at ha
      cases hfm : firstMatch m order s with
      | none =>
        rw [hfm] at ha
        cases hp : m.phase with
        | run => exact hrun hp
        | login => rw [hp] at ha; exact absurd ha (by decide)
        | motd => rw [hp] at ha; exact absurd ha (by decide)
      | some n =>
        rw [hfm] at ha
        have hn := (answer_some m order s ho hi n hfm).1
        rw [show n = t!"FIBS_Board" from ha] at hn
        cases hp : m.phase with
        | run => exact hrun hp
        | login => rw [hp] at hn; revert hn; decide +kernel
        | motd => rw [hp] at hn; revert hn; decide +kernel
  · cases ph <;> revert h <;> decide

theorem damaged_after (order : Phase → List Text) (ho : ValidOrder order)
    (hb : Before t!"FIBS_BAD_Board" t!"FIBS_Board" (order .run)) (msgs : List Text) (m : Monster) (hi : MInv m)
    (hc : t!"FIBS_Board" ∉ m.lastMatch) :
    MInv (m.after order msgs) ∧ t!"FIBS_Board" ∉ (m.after order msgs).lastMatch := by
  induction msgs generalizing m with
  | nil => exact ⟨hi, hc⟩
  | cons s msgs ih =>
    obtain ⟨h1, h2⟩ := damaged_step order ho hb m hi hc s
    exact ih _ h1 h2

end Bglib
