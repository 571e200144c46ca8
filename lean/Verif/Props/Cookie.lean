import Verif.Lemmas.Monster
/-
C30: classification of the messages of a FIBS server by the `CookieMonster`; C53-C55: what the pattern
tables promise.

Every statement is about every possible iteration order of the class dictionaries.
-/
namespace Bglib
open Spec

/-! ### C30 -/

/-- **C30**: every message after any history gets an answer: for an empty message in the run phase
`FIBS_Empty`; otherwise a name one of whose patterns matches; the default of the phase if no pattern of
the phase matches. -/
theorem C30_answer (order : Phase → List Text) (ho : ValidOrder order) (m : Monster)
    (hr : Reachable order m) (msg : Text) :
    ∃ c, (m.makeCookie order msg).1 = .ok c ∧
      (m.phase = .run ∧ msg = [] ∧ c = t!"FIBS_Empty" ∨
       ¬ (m.phase = .run ∧ msg = []) ∧
        (matchesName (tableOf m.phase) msg c = true ∨
          c = defaultCookie m.phase ∧
            ∀ n ∈ (tableOf m.phase).map (·.1), matchesName (tableOf m.phase) msg n = false)) := by
  have hi := reachable_inv order ho m hr
  obtain ⟨m', h1, _⟩ := makeCookie_spec m order msg ho hi
  refine ⟨_, by rw [h1], ?_⟩
  unfold answer
  split
  · next h => exact Or.inl ⟨h.1, h.2, rfl⟩
  · next h =>
    refine Or.inr ⟨h, ?_⟩
    cases hf : firstMatch m order msg with
    | none => exact Or.inr ⟨rfl, firstMatch_none m order msg ho hf⟩
    | some n => exact Or.inl (answer_some m order msg ho hi n hf).2

/-- **C30**: the phase changes exactly on `CLIP_MOTD_BEGIN` in the login phase, `CLIP_MOTD_END` in the
message of the day, `FIBS_Goodbye` in the run phase. -/
theorem C30_phase (order : Phase → List Text) (ho : ValidOrder order) (m : Monster)
    (hr : Reachable order m) (msg c : Text) (h : (m.makeCookie order msg).1 = .ok c) :
    (m.makeCookie order msg).2.phase =
      (match m.phase with
        | .login => if c = t!"CLIP_MOTD_BEGIN" then .motd else .login
        | .motd => if c = t!"CLIP_MOTD_END" then .run else .motd
        | .run => if c = t!"FIBS_Goodbye" then .login else .run) := by
  obtain ⟨m', h1, _, h3, _⟩ := makeCookie_spec m order msg ho (reachable_inv order ho m hr)
  rw [h1] at h ⊢
  simp only [Except.ok.injEq] at h
  subst h
  rw [h3]
  rfl

private theorem mem_single (c x : Char) (h : (CharSet.mk false [(c, c)]).mem x = true) : x = c := by
  simp only [CharSet.mem, List.any_cons, List.any_nil, Bool.or_false, Bool.bne_false, Bool.and_eq_true,
    decide_eq_true_eq] at h
  exact Char.le_antisymm h.2 h.1

private theorem login_unique (msg a b : Text) (ha : a ∈ loginTable.map (·.1)) (hb : b ∈ loginTable.map (·.1))
    (h1 : matchesName loginTable msg a = true) (h2 : matchesName loginTable msg b = true) : a = b := by
  have key : ∀ e ∈ loginTable, matchesName loginTable msg e.1 = true → ∃ x s, msg = x :: s ∧
      e.1 = (if x = 'l' then t!"FIBS_LoginPrompt" else if x = '1' then t!"CLIP_WELCOME"
        else if x = '2' then t!"CLIP_OWN_INFO" else if x = '3' then t!"CLIP_MOTD_BEGIN"
        else if x = '>' then t!"FIBS_FailedLogin" else t!"FIBS_PreLogin") := by
    have step : ∀ e ∈ loginTable, matchesName loginTable msg e.1 = true → ∀ p : Text, e.2 = [p] →
        ∀ (cs : CharSet) (r : List Item), compileRe p = some (.set cs .one :: r) →
        ∃ x s, msg = x :: s ∧ cs.mem x = true := by
      intro e hm hmt p hp cs r hc
      rw [show matchesName loginTable msg e.1 = [p].any (fun p => reMatch p msg) from
        matches_of_mem .login e.1 [p] (hp ▸ hm) msg] at hmt
      simp only [List.any_cons, List.any_nil, Bool.or_false, reMatch, hc] at hmt
      cases msg with
      | nil => simp [matchItems] at hmt
      | cons x s =>
        simp only [matchItems, Bool.and_eq_true] at hmt
        exact ⟨x, s, rfl, hmt.1⟩
    intro e he hmt
    have he' := he
    simp only [loginTable, List.mem_cons, List.not_mem_nil, or_false] at he
    rcases he with rfl | rfl | rfl | rfl | rfl | rfl
    · obtain ⟨x, s, rfl, hx⟩ := step _ he' hmt _ rfl _ _ rfl
      exact ⟨x, s, rfl, by rw [mem_single _ _ hx]; decide⟩
    · obtain ⟨x, s, rfl, hx⟩ := step _ he' hmt _ rfl _ _ rfl
      exact ⟨x, s, rfl, by rw [mem_single _ _ hx]; decide⟩
    · obtain ⟨x, s, rfl, hx⟩ := step _ he' hmt _ rfl _ _ rfl
      exact ⟨x, s, rfl, by rw [mem_single _ _ hx]; decide⟩
    · obtain ⟨x, s, rfl, hx⟩ := step _ he' hmt _ rfl _ _ rfl
      exact ⟨x, s, rfl, by rw [mem_single _ _ hx]; decide⟩
    · obtain ⟨x, s, rfl, hx⟩ := step _ he' hmt _ rfl _ _ rfl
      exact ⟨x, s, rfl, by rw [mem_single _ _ hx]; decide⟩
    · obtain ⟨x, s, rfl, hx⟩ := step _ he' hmt _ rfl _ _ rfl
      refine ⟨x, s, rfl, ?_⟩
      have hne : ∀ c ∈ ['l', '1', '2', '3', '>'], x ≠ c := by
        intro c hc h
        rw [h] at hx
        revert hx
        clear h
        revert c
        decide
      rw [if_neg (hne _ (by simp)), if_neg (hne _ (by simp)), if_neg (hne _ (by simp)),
        if_neg (hne _ (by simp)), if_neg (hne _ (by simp))]
  obtain ⟨e, he, rfl⟩ := List.mem_map.1 ha
  obtain ⟨f, hf, rfl⟩ := List.mem_map.1 hb
  obtain ⟨x, s, hm, h⟩ := key e he h1
  obtain ⟨y, t, hm', h'⟩ := key f hf h2
  rw [hm] at hm'
  simp only [List.cons.injEq] at hm'
  rw [h, h', hm'.1]

/-- **C30**: in the login phase at most one name matches, so the answer depends on the message only. -/
theorem C30_login (order order' : Phase → List Text) (ho : ValidOrder order) (ho' : ValidOrder order')
    (m m' : Monster) (hr : Reachable order m) (hr' : Reachable order' m') (hp : m.phase = .login)
    (hp' : m'.phase = .login) (msg : Text) :
    (m.makeCookie order msg).1 = (m'.makeCookie order' msg).1 := by
  have hi := reachable_inv order ho m hr
  have hi' := reachable_inv order' ho' m' hr'
  obtain ⟨_, h1, _⟩ := makeCookie_spec m order msg ho hi
  obtain ⟨_, h2, _⟩ := makeCookie_spec m' order' msg ho' hi'
  rw [h1, h2]
  unfold answer
  rw [if_neg (by simp [hp]), if_neg (by simp [hp'])]
  cases hf : firstMatch m order msg with
  | none =>
    cases hf' : firstMatch m' order' msg with
    | none => rw [hp, hp']
    | some k =>
      obtain ⟨a, b⟩ := answer_some m' order' msg ho' hi' k hf'
      rw [hp', ← hp] at a b
      rw [firstMatch_none m order msg ho hf k a] at b
      simp at b
  | some n =>
    obtain ⟨a, b⟩ := answer_some m order msg ho hi n hf
    rw [hp] at a b
    rw [firstMatch_unique m' order' msg ho' hi' n (by rw [hp']; exact a) (by rw [hp']; exact b)
      (fun k hk hkm => by
        rw [hp'] at hk hkm
        exact login_unique msg k n hk a hkm b)]
    rfl

/-- **C30**: the session starts in the login phase and leaves it with the line `3`. -/
theorem C30_begin (order : Phase → List Text) (ho : ValidOrder order) (m : Monster)
    (hr : Reachable order m) (hp : m.phase = .login) (msg : Text) :
    (m.makeCookie order msg).2.phase = .motd ↔ msg = t!"3" ∨ msg = t!"3\n" := by
  have hi := reachable_inv order ho m hr
  have hbeg : matchesName (tableOf .login) msg t!"CLIP_MOTD_BEGIN" = true ↔ msg = t!"3" ∨ msg = t!"3\n" := by
    rw [matches_of_mem .login t!"CLIP_MOTD_BEGIN" [t!"^3$"] (by decide)]
    simp only [List.any_cons, List.any_nil, Bool.or_false]
    rw [show reMatch t!"^3$" msg = matchItems [.set ⟨false, [('3', '3')]⟩ .one, .eol] msg from rfl]
    cases msg with
    | nil => decide
    | cons x s =>
      simp only [matchItems, Bool.and_true, Bool.and_eq_true, Bool.or_eq_true, decide_eq_true_eq,
        List.cons.injEq]
      constructor
      · rintro ⟨h1, h2⟩
        have := mem_single _ _ h1
        rcases h2 with h2 | h2
        · exact Or.inl ⟨this, h2⟩
        · exact Or.inr ⟨this, h2⟩
      · rintro (⟨rfl, rfl⟩ | ⟨rfl, rfl⟩)
        · exact ⟨by decide, Or.inl rfl⟩
        · exact ⟨by decide, Or.inr rfl⟩
  obtain ⟨m', h1, _, h3, _⟩ := makeCookie_spec m order msg ho hi
  rw [h1]
  dsimp only
  rw [h3, hp, phaseAfter, ← hbeg]
  constructor
  · intro h
    split at h
    · next hc =>
      unfold answer at hc
      rw [if_neg (by simp [hp])] at hc
      cases hf : firstMatch m order msg with
      | none => rw [hf, hp] at hc; exact absurd hc (by decide)
      | some n =>
        rw [hf] at hc
        have := (answer_some m order msg ho hi n hf).2
        rw [hp] at this
        rw [← hc]
        exact this
    · simp at h
  · intro h
    have hu := firstMatch_unique m order msg ho hi t!"CLIP_MOTD_BEGIN" (by rw [hp]; decide)
      (by rw [hp]; exact h) (fun k hk hkm => by
        rw [hp] at hk hkm
        exact login_unique msg k _ hk (by decide) hkm h)
    rw [if_pos]
    unfold answer
    rw [if_neg (by simp [hp]), hu]
    rfl

/-- **C30**: every line of the message of the day is `FIBS_MOTD`, until the line `4`, which is
`CLIP_MOTD_END` and starts the run phase. -/
theorem C30_motd (order : Phase → List Text) (ho : ValidOrder order) (m : Monster)
    (hr : Reachable order m) (hp : m.phase = .motd) (msg : Text) :
    (m.makeCookie order msg).1 =
        .ok (if msg = t!"4" ∨ msg = t!"4\n" then t!"CLIP_MOTD_END" else t!"FIBS_MOTD") ∧
    (m.makeCookie order msg).2.phase = (if msg = t!"4" ∨ msg = t!"4\n" then .run else .motd) := by
  have hi := reachable_inv order ho m hr
  have hend : matchesName (tableOf .motd) msg t!"CLIP_MOTD_END" = true ↔ msg = t!"4" ∨ msg = t!"4\n" := by
    rw [matches_of_mem .motd t!"CLIP_MOTD_END" [t!"^4$"] (by decide)]
    simp only [List.any_cons, List.any_nil, Bool.or_false]
    rw [show reMatch t!"^4$" msg = matchItems [.set ⟨false, [('4', '4')]⟩ .one, .eol] msg from rfl]
    cases msg with
    | nil => decide
    | cons x s =>
      simp only [matchItems, Bool.and_true, Bool.and_eq_true, Bool.or_eq_true, decide_eq_true_eq,
        List.cons.injEq]
      constructor
      · rintro ⟨h1, h2⟩
        have := mem_single _ _ h1
        rcases h2 with h2 | h2
        · exact Or.inl ⟨this, h2⟩
        · exact Or.inr ⟨this, h2⟩
      · rintro (⟨rfl, rfl⟩ | ⟨rfl, rfl⟩)
        · exact ⟨by decide, Or.inl rfl⟩
        · exact ⟨by decide, Or.inr rfl⟩
  have hother : ∀ s, matchesName (tableOf .motd) ('4' :: s) t!"FIBS_MOTD" = false := by
    intro s
    rw [matches_of_mem .motd t!"FIBS_MOTD" [t!"^[^4]"] (by decide)]
    simp only [List.any_cons, List.any_nil, Bool.or_false]
    rw [show reMatch t!"^[^4]" ('4' :: s) = matchItems [.set ⟨true, [('4', '4')]⟩ .one] ('4' :: s) from rfl]
    simp only [matchItems, Bool.and_true]
    decide
  have hans : answer m order msg =
      (if msg = t!"4" ∨ msg = t!"4\n" then t!"CLIP_MOTD_END" else t!"FIBS_MOTD") := by
    unfold answer
    rw [if_neg (by simp [hp])]
    by_cases h : msg = t!"4" ∨ msg = t!"4\n"
    · rw [if_pos h, firstMatch_unique m order msg ho hi t!"CLIP_MOTD_END" (by rw [hp]; decide)
        (by rw [hp]; exact hend.2 h) (fun k hk hkm => by
          rw [hp] at hk hkm
          simp only [tableOf, motdTable, List.map_cons, List.map_nil, List.mem_cons, List.not_mem_nil,
            or_false] at hk
          rcases hk with rfl | rfl
          · rfl
          · rcases h with rfl | rfl <;> (rw [hother] at hkm; simp at hkm))]
      rfl
    · rw [if_neg h]
      cases hf : firstMatch m order msg with
      | none => rw [hp]; rfl
      | some n =>
        obtain ⟨a, b⟩ := answer_some m order msg ho hi n hf
        rw [hp] at a b
        simp only [tableOf, motdTable, List.map_cons, List.map_nil, List.mem_cons, List.not_mem_nil,
          or_false] at a
        rcases a with rfl | rfl
        · exact absurd (hend.1 b) h
        · rfl
  obtain ⟨m', h1, _, h3, _⟩ := makeCookie_spec m order msg ho hi
  rw [h1]
  dsimp only
  rw [h3, hp, phaseAfter, hans]
  refine ⟨rfl, ?_⟩
  by_cases h : msg = t!"4" ∨ msg = t!"4\n"
  · simp only [if_pos h, if_true]
  · simp only [if_neg h]
    rw [if_neg (by decide)]

/-- **C30**: a line beginning with the farewell ends the run phase. -/
theorem C30_goodbye (order : Phase → List Text) (ho : ValidOrder order) (m : Monster)
    (hr : Reachable order m) (hp : m.phase = .run) (rest : Text) :
    (m.makeCookie order (t!"           Goodbye." ++ rest)).1 = .ok t!"FIBS_Goodbye" ∧
    (m.makeCookie order (t!"           Goodbye." ++ rest)).2.phase = .login := by
  have hi := reachable_inv order ho m hr
  have hpos : possible t!"           Goodbye." = [t!"FIBS_Goodbye"] := by decide +kernel
  have hmem : (t!"FIBS_Goodbye", [t!"           Goodbye\\."]) ∈ runTable := by
    rw [runTable_eq]; decide +kernel
  have hn : t!"FIBS_Goodbye" ∈ runTable.map (·.1) := List.mem_map.2 ⟨_, hmem, rfl⟩
  have hm : matchesName runTable (t!"           Goodbye." ++ rest) t!"FIBS_Goodbye" = true := by
    rw [show matchesName runTable (t!"           Goodbye." ++ rest) t!"FIBS_Goodbye" =
      [t!"           Goodbye\\."].any (fun p => reMatch p (t!"           Goodbye." ++ rest)) from
      matches_of_mem .run _ _ hmem _]
    rfl
  have hf := firstMatch_unique m order (t!"           Goodbye." ++ rest) ho hi t!"FIBS_Goodbye"
    (by rw [hp]; exact hn) (by rw [hp]; exact hm) (fun k hk hkm => by
      rw [hp] at hk hkm
      have := possible_sound _ _ k hk hkm
      rw [hpos] at this
      simpa using this)
  have ha : answer m order (t!"           Goodbye." ++ rest) = t!"FIBS_Goodbye" := by
    unfold answer
    rw [if_neg (by simp), hf]
    rfl
  obtain ⟨m', h1, _, h3, _⟩ := makeCookie_spec m order (t!"           Goodbye." ++ rest) ho hi
  rw [h1]
  dsimp only
  rw [h3, hp, phaseAfter, ha]
  exact ⟨rfl, by decide⟩

/-- **C30**: the matcher of the model accepts exactly the texts that can be read item by item. -/
theorem C30_reads (is : List Item) (s : Text) : matchItems is s = true ↔ Reads is s := matchItems_iff is s

/-! ### C53: the patterns of the class body -/

/-- The names whose settings lines are listed in the class body, fibs.py:228-261. -/
def toggles : List Text :=
  [t!"allowpip", t!"autoboard", t!"autodouble", t!"automove", t!"bell", t!"crawford", t!"double",
   t!"moreboards", t!"moves", t!"greedy", t!"notify", t!"ratings", t!"ready", t!"report", t!"silent",
   t!"telnet", t!"wrap"]

/-- A line of the answer to `toggle`, padded as FIBS does. -/
def settingLine (name : Text) (on : Bool) : Text :=
  name ++ List.replicate (24 - name.length) ' ' ++ (if on then t!"YES" else t!"NO")

/-- **C53** (the part that holds): a pattern whose name is not assigned again further down is in force: a
message it matches is not unknown. -/
theorem C53_partial (order : Phase → List Text) (ho : ValidOrder order) (m : Monster)
    (hr : Reachable order m) (hp : m.phase = .run) (e : Text × List Text) (he : e ∈ runTable)
    (p : Text) (hpe : p ∈ e.2) (msg : Text) (hm : reMatch p msg = true) :
    (m.makeCookie order msg).1 ≠ .ok t!"FIBS_Unknown" := by
  have hi := reachable_inv order ho m hr
  obtain ⟨m', h1, _⟩ := makeCookie_spec m order msg ho hi
  rw [h1]
  intro h
  simp only [Except.ok.injEq] at h
  unfold answer at h
  split at h
  · revert h; decide
  · cases hf : firstMatch m order msg with
    | none =>
      have := firstMatch_none m order msg ho hf e.1 (by rw [hp]; exact List.mem_map.2 ⟨e, he, rfl⟩)
      rw [matches_of_mem m.phase e.1 e.2 (by rw [hp]; exact he)] at this
      rw [List.any_eq_true.2 ⟨p, hpe, hm⟩] at this
      simp at this
    | some n =>
      obtain ⟨a, _⟩ := answer_some m order msg ho hi n hf
      rw [hf] at h
      simp only [Option.getD_some] at h
      subst h
      rw [hp, tableOf, runTable_eq] at a
      exact absurd a (by decide +kernel)

/-- **C53** is false: for each of the seventeen settings the class body lists patterns that match the two
settings lines, and yet both lines are unknown, whatever came before. -/
theorem C53_false :
    (∀ name ∈ toggles, ∀ on, ∃ e ∈ runSource, ∃ p ∈ e.2, reMatch p (settingLine name on) = true) ∧
    ∀ order, ValidOrder order → ∀ m, Reachable order m → m.phase = .run → ∀ name ∈ toggles, ∀ on,
      (m.makeCookie order (settingLine name on)).1 = .ok t!"FIBS_Unknown" := by
  constructor
  · have : ∀ name ∈ toggles, ∀ on, runSource.any (fun e => e.2.any fun p => reMatch p (settingLine name on)) =
      true := by decide +kernel
    intro name hn on
    have h := this name hn on
    simp only [List.any_eq_true] at h
    exact h
  · have : ∀ name ∈ toggles, ∀ on, settingLine name on ≠ [] ∧ matching (settingLine name on) = [] := by
      decide +kernel
    intro order ho m hr hp name hn on
    have hi := reachable_inv order ho m hr
    obtain ⟨m', h1, _⟩ := makeCookie_spec m order (settingLine name on) ho hi
    obtain ⟨h2, h3⟩ := this name hn on
    rw [h1, answer_zero order ho m hi hp _ h2 h3]

/-! ### C54: does the answer depend on what came before? -/

/-- A monster in the run phase after login and message of the day. -/
theorem reach_run (order : Phase → List Text) (ho : ValidOrder order) :
    Reachable order (Monster.new.after order [t!"3", t!"4"]) ∧
    (Monster.new.after order [t!"3", t!"4"]).phase = .run := by
  have h1 : Reachable order (Monster.new.makeCookie order t!"3").2 := .step _ _ .new
  have h2 : (Monster.new.makeCookie order t!"3").2.phase = .motd :=
    (C30_begin order ho _ .new rfl t!"3").2 (Or.inl rfl)
  exact ⟨.step _ _ h1, (C30_motd order ho _ h1 h2 t!"4").2⟩

/-- **C54** (the part that holds): a message matching the patterns of a single name gets that answer in
the run phase, whatever came before. -/
theorem C54_unique_partial (order : Phase → List Text) (ho : ValidOrder order) (m : Monster)
    (hr : Reachable order m) (hp : m.phase = .run) (msg n : Text) (he : msg ≠ [])
    (hn : n ∈ runTable.map (·.1)) (hm : matchesName runTable msg n = true)
    (hu : ∀ k ∈ runTable.map (·.1), matchesName runTable msg k = true → k = n) :
    (m.makeCookie order msg).1 = .ok n := by
  have hi := reachable_inv order ho m hr
  obtain ⟨m', h1, _⟩ := makeCookie_spec m order msg ho hi
  rw [h1]
  unfold answer
  rw [if_neg (by simp [he]), firstMatch_unique m order msg ho hi n (by rw [hp]; exact hn)
    (by rw [hp]; exact hm) (by rw [hp]; exact hu)]
  rfl

/-- **C54** is false: after a damaged board line every good board line is taken as damaged, and after an
unusual line of `show moves` every line of it is taken as unusual, whatever the iteration order. -/
theorem C54_false (order : Phase → List Text) (ho : ValidOrder order) (m : Monster)
    (hr : Reachable order m) (hp : m.phase = .run) :
    matching t!"board:You:fred:1:0:0:2" = [t!"FIBS_Board", t!"FIBS_BAD_Board"] ∧
    ((m.makeCookie order t!"board:").2.makeCookie order t!"board:You:fred:1:0:0:2").1 =
      .ok t!"FIBS_BAD_Board" ∧
    matching t!"X: wins" = [t!"FIBS_ShowMovesWins", t!"FIBS_ShowMovesOther"] ∧
    ((m.makeCookie order t!"X: ").2.makeCookie order t!"X: wins").1 = .ok t!"FIBS_ShowMovesOther" := by
  refine ⟨by decide +kernel, ?_, by decide +kernel, ?_⟩
  · exact sticky order ho m hr hp _ _ _ (by decide) (by decide) (by decide +kernel) (by decide +kernel)
      (by decide)
  · exact sticky order ho m hr hp _ _ _ (by decide) (by decide) (by decide +kernel) (by decide +kernel)
      (by decide)

/-- The two answers of **C54** really differ: for the order of the class body the good line is recognised
if it comes first. -/
theorem C54_differ :
    ((Monster.new.after (fun ph => (tableOf ph).map (·.1)) [t!"3", t!"4"]).makeCookie
      (fun ph => (tableOf ph).map (·.1)) t!"board:You:fred:1:0:0:2").1 = .ok t!"FIBS_Board" := by
  have hr : tableOf .run = runEffective := runTable_eq
  have ho : ValidOrder (fun ph => (tableOf ph).map (·.1)) := fun ph => List.Perm.refl _
  obtain ⟨h1, h2⟩ := reach_run (fun ph => (tableOf ph).map (·.1)) ho
  have hl : (Monster.new.after (fun ph => (tableOf ph).map (·.1)) [t!"3", t!"4"]).lastMatch =
      [t!"CLIP_WHO_INFO"] := by decide +kernel
  obtain ⟨m', h3, _⟩ := makeCookie_spec _ _ t!"board:You:fred:1:0:0:2" ho (reachable_inv _ ho _ h1)
  rw [h3]
  unfold answer firstMatch
  rw [h2, hl, if_neg (by decide)]
  dsimp only
  have : ([t!"CLIP_WHO_INFO"] ++ runEffective.map (·.1)).find?
      (matchesName runEffective t!"board:You:fred:1:0:0:2") = some t!"FIBS_Board" := by decide +kernel
  rw [hr, this]
  rfl

/-! ### C55: the opponent's double -/

/-- The offer of a double, as FIBS sends it to the player who has to answer it. -/
def doubleOffer (name : Text) : Text := name ++ t!" doubles. Type 'accept' or 'reject'."

/-- **C55** is false: the pattern of `FIBS_AcceptRejectDouble` has no name in front, and `match` looks only
at the beginning.  An offer is never recognised as such, it is taken for the notice that a watched player
doubles. -/
theorem C55_false (order : Phase → List Text) (ho : ValidOrder order) (m : Monster)
    (hr : Reachable order m) (hp : m.phase = .run) :
    (m.makeCookie order (doubleOffer t!"fred")).1 = .ok t!"FIBS_Doubles" := by
  have hi := reachable_inv order ho m hr
  obtain ⟨m', h1, _⟩ := makeCookie_spec m order (doubleOffer t!"fred") ho hi
  rw [h1, (answer_one order ho m hi hp _ _ (by decide)
    (show matching (doubleOffer t!"fred") = [t!"FIBS_Doubles"] by decide +kernel)).2]

private theorem double_match (msg : Text)
    (h : matchesName runTable msg t!"FIBS_AcceptRejectDouble" = true) :
    ∃ r, msg = t!"doubles. Type 'accept' or 'reject'." ++ r := by
  have hmem : (t!"FIBS_AcceptRejectDouble", [t!"doubles\\. Type 'accept' or 'reject'\\."]) ∈ runTable := by
    rw [runTable_eq]; decide +kernel
  rw [show matchesName runTable msg t!"FIBS_AcceptRejectDouble" = _ from
    matches_of_mem .run _ _ hmem msg] at h
  simp only [List.any_cons, List.any_nil, Bool.or_false] at h
  have lit : ∀ (w : Text) (s : Text),
      matchItems (w.map fun c => Item.set ⟨false, [(c, c)]⟩ .one) s = true → ∃ r, s = w ++ r := by
    intro w
    induction w with
    | nil => exact fun s _ => ⟨s, rfl⟩
    | cons c w ih =>
      intro s hs
      cases s with
      | nil => simp [matchItems] at hs
      | cons x s =>
        simp only [List.map_cons, matchItems, Bool.and_eq_true] at hs
        obtain ⟨r, hr⟩ := ih s hs.2
        exact ⟨r, by rw [mem_single _ _ hs.1, hr]; rfl⟩
  exact lit t!"doubles. Type 'accept' or 'reject'." msg h

/-- **C55**, in general: whoever doubles, only somebody named `doubles. Type…` would have the offer
recognised. -/
theorem C55_never (order : Phase → List Text) (ho : ValidOrder order) (m : Monster)
    (hr : Reachable order m) (hp : m.phase = .run) (name : Text) (hn : ∀ c ∈ name, c ≠ '.')
    (hs : ∀ c ∈ name, c ≠ ' ') :
    (m.makeCookie order (doubleOffer name)).1 ≠ .ok t!"FIBS_AcceptRejectDouble" := by
  obtain ⟨c, h1, h2⟩ := C30_answer order ho m hr (doubleOffer name)
  rw [h1]
  intro h
  simp only [Except.ok.injEq] at h
  subst h
  rw [hp] at h2
  rcases h2 with ⟨_, _, h⟩ | ⟨_, h | ⟨h, _⟩⟩
  · revert h; decide
  · obtain ⟨r, hr⟩ := double_match _ h
    have hl : ∀ (a : Text), (∀ c ∈ a, c ≠ '.') → (∀ c ∈ a, c ≠ ' ') → ∀ (b : Text), (∀ c ∈ b, c ≠ ' ') → ∀ t u,
        a ++ ' ' :: t = b ++ ' ' :: u → a = b := by
      intro a
      induction a with
      | nil =>
        intro _ _ b hb t u h
        cases b with
        | nil => rfl
        | cons x b =>
          simp only [List.nil_append, List.cons_append, List.cons.injEq] at h
          exact absurd h.1.symm (hb x (by simp))
      | cons y a ih =>
        intro h1 h2 b hb t u h
        cases b with
        | nil =>
          simp only [List.nil_append, List.cons_append, List.cons.injEq] at h
          exact absurd h.1 (h2 y (by simp))
        | cons x b =>
          simp only [List.cons_append, List.cons.injEq] at h
          rw [h.1, ih (fun c hc => h1 c (by simp [hc])) (fun c hc => h2 c (by simp [hc])) b
            (fun c hc => hb c (by simp [hc])) t u h.2]
    have := hl name hn hs t!"doubles." (by decide) _ _ hr
    exact hn '.' (by rw [this]; simp) rfl
  · revert h; decide

/-- **C55** (the part that holds): the offer is never unknown when the name is a FIBS name (letters,
`_`, `<`, `>`); it is recognised as some double. -/
theorem C55_partial (order : Phase → List Text) (ho : ValidOrder order) (m : Monster)
    (hr : Reachable order m) (hp : m.phase = .run) (name : Text) (h0 : name ≠ [])
    (hn : ∀ c ∈ name, (CharSet.mk false [('a', 'z'), ('A', 'Z'), ('_', '_'), ('<', '<'), ('>', '>')]).mem c = true) :
    (m.makeCookie order (doubleOffer name)).1 ≠ .ok t!"FIBS_Unknown" := by
  have hmem : (t!"FIBS_Doubles", [t!"^[a-zA-Z_<>]+ doubles\\."]) ∈ runTable := by
    rw [runTable_eq]; decide +kernel
  refine C53_partial order ho m hr hp _ hmem t!"^[a-zA-Z_<>]+ doubles\\." (by simp) _ ?_
  unfold reMatch
  rw [show compileRe t!"^[a-zA-Z_<>]+ doubles\\." = some
    (.set (CharSet.mk false [('a', 'z'), ('A', 'Z'), ('_', '_'), ('<', '<'), ('>', '>')]) .plus ::
      (t!" doubles.").map fun c => Item.set ⟨false, [(c, c)]⟩ .one) from rfl]
  dsimp only
  rw [matchItems_iff]
  have lit : ∀ (w s : Text), Reads (w.map fun c => Item.set ⟨false, [(c, c)]⟩ .one) (w ++ s) := by
    intro w s
    induction w with
    | nil => exact .done _
    | cons c w ih => exact .one _ _ _ _ (by simp [CharSet.mem]) ih
  exact .plus _ _ _ _ h0 hn (lit t!" doubles." t!" Type 'accept' or 'reject'.")

/-! ### Non-vacuity -/

/-- The order of the class body. -/
def bodyOrder : Phase → List Text := fun ph => (tableOf ph).map (·.1)

theorem bodyOrder_valid : ValidOrder bodyOrder := fun _ => List.Perm.refl _

/-- A monster in the run phase exists, so C30_goodbye, C53-C55 speak about something. -/
example : ∃ order m, ValidOrder order ∧ Reachable order m ∧ m.phase = .run :=
  ⟨bodyOrder, _, bodyOrder_valid, reach_run bodyOrder bodyOrder_valid⟩
example : ∃ order m, ValidOrder order ∧ Reachable order m ∧ m.phase = .login :=
  ⟨bodyOrder, _, bodyOrder_valid, .new, rfl⟩
example : ∃ order m, ValidOrder order ∧ Reachable order m ∧ m.phase = .motd :=
  ⟨bodyOrder, _, bodyOrder_valid, .step _ t!"3" .new,
    (C30_begin bodyOrder bodyOrder_valid _ .new rfl t!"3").2 (Or.inl rfl)⟩
/-- C54_unique_partial has instances. -/
example : matching t!"You roll 3 and 1" = [t!"FIBS_YouRoll"] := by decide +kernel
/-- C53_partial has instances. -/
example : ∃ e ∈ runTable, ∃ p ∈ e.2, reMatch p t!"You roll 3 and 1" = true :=
  ⟨(t!"FIBS_YouRoll", [t!"^You roll [1-6] and [1-6]"]), by rw [runTable_eq]; decide +kernel, _,
    List.mem_cons_self, by decide +kernel⟩

end Bglib
