import Verif.Lemmas.Cookie
namespace Bglib
open Spec

theorem lastWins_mem (t : Table) (n : Text) : n ∈ (lastWins t).map (·.1) ↔ n ∈ t.map (·.1) := by
  induction t with
  | nil => simp [lastWins]
  | cons e r ih =>
    rw [lastWins]
    split
    · next h =>
      rw [ih]
      simp only [List.any_eq_true, beq_iff_eq] at h
      obtain ⟨x, hx, he⟩ := h
      constructor
      · intro h; simp [h]
      · intro h
        simp only [List.map_cons, List.mem_cons] at h
        rcases h with rfl | h
        · rw [← he]; exact List.mem_map_of_mem hx
        · exact h
    · simp only [List.map_cons, List.mem_cons, ih]

theorem lastWins_nodup (t : Table) : ((lastWins t).map (·.1)).Nodup := by
  induction t with
  | nil => simp [lastWins]
  | cons e r ih =>
    rw [lastWins]
    split
    · exact ih
    · next h =>
      simp only [List.map_cons, List.nodup_cons]
      refine ⟨fun hm => h ?_, ih⟩
      rw [lastWins_mem] at hm
      obtain ⟨x, hx, he⟩ := List.mem_map.1 hm
      simp only [List.any_eq_true, beq_iff_eq]
      exact ⟨x, hx, he⟩

theorem lookup_mem (t : Table) (n : Text) (v : List Text) (h : t.lookup n = some v) : (n, v) ∈ t := by
  induction t with
  | nil => simp at h
  | cons e r ih =>
    obtain ⟨a, w⟩ := e
    rw [List.lookup_cons] at h
    by_cases hn : n = a
    · subst hn; simp at h; simp [h]
    · have : (n == a) = false := by simpa using hn
      rw [this] at h
      exact List.mem_cons_of_mem _ (ih h)

theorem lookup_isSome (t : Table) (n : Text) (h : n ∈ t.map (·.1)) : ∃ v, t.lookup n = some v := by
  induction t with
  | nil => simp at h
  | cons e r ih =>
    obtain ⟨a, w⟩ := e
    rw [List.lookup_cons]
    by_cases hn : n = a
    · subst hn; exact ⟨w, by simp⟩
    · have : (n == a) = false := by simpa using hn
      rw [this]
      simp only [List.map_cons, List.mem_cons] at h
      rcases h with h | h
      · exact absurd h hn
      · exact ih h

theorem lookup_of_mem (t : Table) (n : Text) (v : List Text) (hn : (t.map (·.1)).Nodup) (h : (n, v) ∈ t) :
    t.lookup n = some v := by
  induction t with
  | nil => simp at h
  | cons e r ih =>
    obtain ⟨a, w⟩ := e
    rw [List.lookup_cons]
    simp only [List.map_cons, List.nodup_cons] at hn
    rcases List.mem_cons.1 h with h' | h'
    · simp only [Prod.mk.injEq] at h'; obtain ⟨rfl, rfl⟩ := h'; simp
    · have : n ≠ a := by rintro rfl; exact hn.1 (List.mem_map.2 ⟨(n, v), h', rfl⟩)
      have : (n == a) = false := by simpa using this
      rw [this]
      exact ih hn.2 h'

theorem table_nodup (ph : Phase) : ((tableOf ph).map (·.1)).Nodup := by
  cases ph
  · decide +kernel
  · decide +kernel
  · exact lastWins_nodup _

theorem table_compiles (ph : Phase) : ∀ e ∈ tableOf ph, (compileAll e.2).isSome = true := by
  cases ph
  · have : loginTable.all (fun e => (compileAll e.2).isSome) = true := by decide +kernel
    simpa [tableOf] using this
  · have : motdTable.all (fun e => (compileAll e.2).isSome) = true := by decide +kernel
    simpa [tableOf] using this
  · rw [tableOf, runTable_eq]; exact run_compiles

/-- Names occurring in more than one table have the same patterns there; so the common cache is no
problem. -/
theorem tables_agree (p q : Phase) (n : Text) (v w : List Text) (h1 : (tableOf p).lookup n = some v)
    (h2 : (tableOf q).lookup n = some w) : v = w := by
  have lm : ∀ e ∈ loginTable, ∀ f ∈ motdTable, e.1 = f.1 → e.2 = f.2 := by decide +kernel
  have lr : ∀ e ∈ loginTable, ∀ f ∈ runEffective, e.1 = f.1 → e.2 = f.2 := by decide +kernel
  have mr : ∀ e ∈ motdTable, ∀ f ∈ runEffective, e.1 = f.1 → e.2 = f.2 := by decide +kernel
  have self : p = q → v = w := by rintro rfl; rw [h1] at h2; simpa using h2
  have m1 := lookup_mem _ _ _ h1
  have m2 := lookup_mem _ _ _ h2
  rw [← runTable_eq] at lr mr
  cases p <;> cases q
  · exact self rfl
  · exact lm _ m1 _ m2 rfl
  · exact lr _ m1 _ m2 rfl
  · exact (lm _ m2 _ m1 rfl).symm
  · exact self rfl
  · exact mr _ m1 _ m2 rfl
  · exact (lr _ m2 _ m1 rfl).symm
  · exact (mr _ m2 _ m1 rfl).symm
  · exact self rfl

/-! ### The loop -/

/-- Cached expressions are the compiled patterns of every table with that name. -/
def Coherent (c : Cache) : Prop :=
  ∀ n v, c.lookup n = some v → ∀ ph ps, (tableOf ph).lookup n = some ps → compileAll ps = some v

theorem compileAll_any (ps : List Text) (v : List (List Item)) (msg : Text) (h : compileAll ps = some v) :
    v.any (fun r => matchItems r msg) = ps.any (fun p => reMatch p msg) := by
  unfold compileAll at h
  induction ps generalizing v with
  | nil => simp at h; subst h; rfl
  | cons p ps ih =>
    simp only [List.mapM_cons, Option.bind_eq_bind, Option.bind_eq_some_iff, Option.pure_def,
      Option.some.injEq] at h
    obtain ⟨x, hx, xs, hxs, rfl⟩ := h
    simp only [List.any_cons, ih xs hxs]
    congr 1
    unfold reMatch
    rw [hx]

theorem tryNames_spec (ph : Phase) (msg : Text) (names : List Text) (cache : Cache) (hc : Coherent cache)
    (hn : ∀ n ∈ names, n ∈ (tableOf ph).map (·.1)) :
    ∃ cache', tryNames (tableOf ph) msg names cache =
      (.ok (names.find? (matchesName (tableOf ph) msg)), cache') ∧ Coherent cache' := by
  induction names generalizing cache with
  | nil => exact ⟨cache, rfl, hc⟩
  | cons n ns ih =>
    obtain ⟨ps, hps⟩ := lookup_isSome _ _ (hn n (by simp))
    have hn' : ∀ n ∈ ns, n ∈ (tableOf ph).map (·.1) := fun n h => hn n (by simp [h])
    have hm : matchesName (tableOf ph) msg n = ps.any (fun p => reMatch p msg) := by
      unfold matchesName; rw [hps]
    obtain ⟨v, hv⟩ := Option.isSome_iff_exists.1 (table_compiles ph _ (lookup_mem _ _ _ hps))
    have fin : ∀ (w : List (List Item)) (c : Cache), compileAll ps = some w → Coherent c →
        ∃ cache', (if w.any (fun r => matchItems r msg) then (Except.ok (some n), c)
          else tryNames (tableOf ph) msg ns c) =
          (.ok ((n :: ns).find? (matchesName (tableOf ph) msg)), cache') ∧ Coherent cache' := by
      intro w c hw hcc
      rw [List.find?_cons, hm, compileAll_any ps w msg hw]
      cases ps.any (fun p => reMatch p msg) with
      | true => exact ⟨c, rfl, hcc⟩
      | false => exact ih c hcc hn'
    rw [tryNames]
    simp only [hps]
    cases hl : cache.lookup n with
    | some w => exact fin w cache (hc n w hl ph ps hps) hc
    | none =>
      simp only [hv, Option.map_some]
      refine fin v _ hv ?_
      intro k w hk qh qs hqs
      rw [List.lookup_cons] at hk
      by_cases hkn : k = n
      · subst hkn
        simp at hk
        subst hk
        rw [← tables_agree ph qh k ps qs hps hqs]
        exact hv
      · have : (k == n) = false := by simpa using hkn
        rw [this] at hk
        exact hc k w hk qh qs hqs

/-! ### Reachable monsters -/

structure MInv (m : Monster) : Prop where
  names : ∀ n ∈ m.lastMatch, n ∈ (tableOf m.phase).map (·.1)
  nodup : m.lastMatch.Nodup
  coherent : Coherent m.cache

theorem initial_names (ph : Phase) : ∀ n ∈ initialLast ph, n ∈ (tableOf ph).map (·.1) := by
  cases ph
  · decide +kernel
  · decide +kernel
  · rw [tableOf, runTable_eq]
    have : (initialLast .run).all (fun n => (runEffective.map (·.1)).any (fun x => x == n)) = true := by decide +kernel
    intro n hn
    have := List.all_eq_true.1 this n hn
    simp only [List.any_eq_true, beq_iff_eq] at this
    obtain ⟨x, hx, rfl⟩ := this
    exact hx

theorem new_inv : MInv Monster.new :=
  ⟨initial_names .login, by decide +kernel, by intro n v h; simp [Monster.new] at h⟩

/-- What the classifier answers: the first matching name in the order it tries them. -/
def firstMatch (m : Monster) (order : Phase → List Text) (msg : Text) : Option Text :=
  (m.lastMatch ++ order m.phase).find? (matchesName (tableOf m.phase) msg)

theorem stateCookie_spec (m : Monster) (order : Phase → List Text) (msg : Text) (ho : ValidOrder order)
    (hi : MInv m) :
    ∃ m', m.stateCookie order msg = (.ok (if m.phase = .run ∧ msg = [] then t!"FIBS_Empty"
        else (firstMatch m order msg).getD (defaultCookie m.phase)), m') ∧ MInv m' ∧ m'.phase = m.phase ∧
      (∀ n, ¬ (m.phase = .run ∧ msg = []) → firstMatch m order msg = some n →
        m'.lastMatch = n :: m.lastMatch.erase n) := by
  unfold Monster.stateCookie
  split
  · next h => exact ⟨m, rfl, hi, rfl, fun _ hne => absurd h hne⟩
  · obtain ⟨cache', hr, hc⟩ := tryNames_spec m.phase msg (m.lastMatch ++ order m.phase) m.cache hi.coherent (by
      intro n hn
      rcases List.mem_append.1 hn with hn | hn
      · exact hi.names n hn
      · exact (ho m.phase).mem_iff.1 hn)
    unfold firstMatch
    rw [hr]
    cases hf : (m.lastMatch ++ order m.phase).find? (matchesName (tableOf m.phase) msg) with
    | none =>
      refine ⟨_, rfl, ⟨hi.names, hi.nodup, hc⟩, rfl, ?_⟩
      intro n _ h; simp at h
    | some n =>
      have hmem := List.mem_of_find?_eq_some hf
      refine ⟨_, rfl, ⟨?_, ?_, hc⟩, rfl, ?_⟩
      · intro k hk
        simp only [List.mem_cons] at hk
        rcases hk with rfl | hk
        · rcases List.mem_append.1 hmem with h | h
          · exact hi.names _ h
          · exact (ho m.phase).mem_iff.1 h
        · exact hi.names k (List.mem_of_mem_erase hk)
      · rw [List.nodup_cons]
        refine ⟨?_, hi.nodup.erase n⟩
        intro h
        exact (List.Nodup.mem_erase_iff hi.nodup).1 h |>.1 rfl
      · intro k _ h
        simp only [Option.some.injEq] at h
        subst h
        rfl

/-- The answer to a message. -/
def answer (m : Monster) (order : Phase → List Text) (msg : Text) : Text :=
  if m.phase = .run ∧ msg = [] then t!"FIBS_Empty" else (firstMatch m order msg).getD (defaultCookie m.phase)

/-- The phase after an answer. -/
def phaseAfter (ph : Phase) (c : Text) : Phase :=
  match ph with
  | .login => if c = t!"CLIP_MOTD_BEGIN" then .motd else .login
  | .motd => if c = t!"CLIP_MOTD_END" then .run else .motd
  | .run => if c = t!"FIBS_Goodbye" then .login else .run

theorem fresh_inv (ph : Phase) (c : Cache) (hc : Coherent c) : MInv ⟨ph, initialLast ph, c⟩ :=
  ⟨initial_names ph, by cases ph <;> simp [initialLast], hc⟩

theorem makeCookie_spec (m : Monster) (order : Phase → List Text) (msg : Text) (ho : ValidOrder order)
    (hi : MInv m) :
    ∃ m', m.makeCookie order msg = (.ok (answer m order msg), m') ∧ MInv m' ∧
      m'.phase = phaseAfter m.phase (answer m order msg) ∧
      (m'.phase = m.phase → ∀ n, ¬ (m.phase = .run ∧ msg = []) → firstMatch m order msg = some n →
        m'.lastMatch = n :: m.lastMatch.erase n) := by
  obtain ⟨m', h1, h2, h3, h4⟩ := stateCookie_spec m order msg ho hi
  unfold Monster.makeCookie
  rw [h1]
  have ha : (if m.phase = .run ∧ msg = [] then t!"FIBS_Empty"
        else (firstMatch m order msg).getD (defaultCookie m.phase)) = answer m order msg := rfl
  rw [ha]
  refine ⟨_, rfl, ?_, ?_, ?_⟩
  · unfold Monster.nextState
    split <;> split
    all_goals first | exact h2 | exact fresh_inv _ _ h2.coherent
  · unfold Monster.nextState phaseAfter
    rw [h3]
    cases hp : m.phase <;> simp only <;> split <;> first | rfl | (rw [h3, hp])
  · intro hsame n hne hf
    have := h4 n hne hf
    rw [← this]
    revert hsame
    unfold Monster.nextState
    rw [← h3]
    cases hp : m'.phase <;> simp only <;> split
    all_goals first | (intro _; rfl) | (intro h; simp at h)

theorem reachable_inv (order : Phase → List Text) (ho : ValidOrder order) (m : Monster)
    (h : Reachable order m) : MInv m := by
  induction h with
  | new => exact new_inv
  | step m msg _ ih =>
    obtain ⟨m', h1, h2, _⟩ := makeCookie_spec m order msg ho ih
    rw [h1]; exact h2

theorem answer_some (m : Monster) (order : Phase → List Text) (msg : Text) (ho : ValidOrder order)
    (hi : MInv m) (n : Text) (h : firstMatch m order msg = some n) :
    n ∈ (tableOf m.phase).map (·.1) ∧ matchesName (tableOf m.phase) msg n = true := by
  refine ⟨?_, List.find?_some h⟩
  rcases List.mem_append.1 (List.mem_of_find?_eq_some h) with h | h
  · exact hi.names _ h
  · exact (ho m.phase).mem_iff.1 h

theorem firstMatch_none (m : Monster) (order : Phase → List Text) (msg : Text) (ho : ValidOrder order)
    (h : firstMatch m order msg = none) (n : Text) (hn : n ∈ (tableOf m.phase).map (·.1)) :
    matchesName (tableOf m.phase) msg n = false := by
  have := List.find?_eq_none.1 h n (List.mem_append_right _ ((ho m.phase).mem_iff.2 hn))
  simpa using this

/-- If at most one name matches, the answer does not depend on order and history. -/
theorem firstMatch_unique (m : Monster) (order : Phase → List Text) (msg : Text) (ho : ValidOrder order)
    (hi : MInv m) (n : Text) (hn : n ∈ (tableOf m.phase).map (·.1))
    (hm : matchesName (tableOf m.phase) msg n = true)
    (hu : ∀ k ∈ (tableOf m.phase).map (·.1), matchesName (tableOf m.phase) msg k = true → k = n) :
    firstMatch m order msg = some n := by
  cases hf : firstMatch m order msg with
  | none => have := firstMatch_none m order msg ho hf n hn; rw [hm] at this; simp at this
  | some k =>
    obtain ⟨h1, h2⟩ := answer_some m order msg ho hi k hf
    rw [hu k h1 h2]

theorem matches_of_mem (ph : Phase) (n : Text) (ps : List Text) (h : (n, ps) ∈ tableOf ph) (msg : Text) :
    matchesName (tableOf ph) msg n = ps.any (fun p => reMatch p msg) := by
  unfold matchesName
  rw [lookup_of_mem _ _ _ (table_nodup ph) h]

/-- Names of the run phase that may match a message with a given beginning. -/
def possible (pre : Text) : List Text :=
  (runEffective.filter fun e => !(e.2.all fun p => refutedRe p pre)).map (·.1)

theorem possible_sound (pre rest n : Text) (hn : n ∈ runTable.map (·.1))
    (h : matchesName runTable (pre ++ rest) n = true) : n ∈ possible pre := by
  obtain ⟨⟨k, ps⟩, he, rfl⟩ := List.mem_map.1 hn
  rw [show matchesName runTable (pre ++ rest) k = ps.any (fun p => reMatch p (pre ++ rest)) from
    matches_of_mem .run k ps he _] at h
  rw [runTable_eq] at he
  unfold possible
  refine List.mem_map.2 ⟨(k, ps), List.mem_filter.2 ⟨he, ?_⟩, rfl⟩
  simp only [Bool.not_eq_true', List.all_eq_false]
  obtain ⟨p, hp, hpm⟩ := List.any_eq_true.1 h
  refine ⟨p, hp, fun hr => ?_⟩
  rw [refutedRe_sound p pre rest hr] at hpm
  simp at hpm

/-- The names of the run phase that match a message. -/
def matching (msg : Text) : List Text :=
  (runEffective.filter fun e => e.2.any fun p => reMatch p msg).map (·.1)

theorem mem_matching (msg n : Text) (hn : n ∈ runTable.map (·.1)) :
    matchesName runTable msg n = true ↔ n ∈ matching msg := by
  unfold matching
  constructor
  · intro h
    obtain ⟨⟨k, ps⟩, he, rfl⟩ := List.mem_map.1 hn
    rw [show matchesName runTable msg k = ps.any (fun p => reMatch p msg) from
      matches_of_mem .run k ps he _] at h
    rw [runTable_eq] at he
    exact List.mem_map.2 ⟨(k, ps), List.mem_filter.2 ⟨he, h⟩, rfl⟩
  · intro h
    obtain ⟨⟨k, ps⟩, he, rfl⟩ := List.mem_map.1 h
    obtain ⟨h1, h2⟩ := List.mem_filter.1 he
    rw [← runTable_eq] at h1
    rw [show matchesName runTable msg k = ps.any (fun p => reMatch p msg) from
      matches_of_mem .run k ps h1 _]
    exact h2

theorem matching_names (msg n : Text) (h : n ∈ matching msg) : n ∈ runTable.map (·.1) := by
  obtain ⟨e, he, rfl⟩ := List.mem_map.1 h
  rw [runTable_eq]
  exact List.mem_map.2 ⟨e, (List.mem_filter.1 he).1, rfl⟩

/-- The answer when exactly one name of the run phase matches. -/
theorem answer_one (order : Phase → List Text) (ho : ValidOrder order) (m : Monster) (hi : MInv m)
    (hp : m.phase = .run) (msg n : Text) (he : msg ≠ []) (h : matching msg = [n]) :
    firstMatch m order msg = some n ∧ answer m order msg = n := by
  have hn : n ∈ runTable.map (·.1) := matching_names msg n (by rw [h]; simp)
  have := firstMatch_unique m order msg ho hi n (by rw [hp]; exact hn)
    (by rw [hp]; exact (mem_matching msg n hn).2 (by rw [h]; simp))
    (fun k hk hkm => by
      rw [hp] at hk hkm
      have := (mem_matching msg k hk).1 hkm
      rw [h] at this
      simpa using this)
  refine ⟨this, ?_⟩
  unfold answer
  rw [if_neg (by simp [he]), this]
  rfl

/-- The answer when no name of the run phase matches. -/
theorem answer_zero (order : Phase → List Text) (ho : ValidOrder order) (m : Monster) (hi : MInv m)
    (hp : m.phase = .run) (msg : Text) (he : msg ≠ []) (h : matching msg = []) :
    answer m order msg = t!"FIBS_Unknown" := by
  unfold answer
  rw [if_neg (by simp [he])]
  cases hf : firstMatch m order msg with
  | none => rw [hp]; rfl
  | some k =>
    obtain ⟨h1, h2⟩ := answer_some m order msg ho hi k hf
    rw [hp] at h1 h2
    have := (mem_matching msg k h1).1 h2
    rw [h] at this
    simp at this

/-- A matching name on top of the list of last matches is the answer. -/
theorem answer_top (order : Phase → List Text) (m : Monster) (n : Text) (l : List Text)
    (hl : m.lastMatch = n :: l) (msg : Text) (he : msg ≠ [])
    (h : matchesName (tableOf m.phase) msg n = true) : answer m order msg = n := by
  unfold answer firstMatch
  rw [if_neg (by simp [he]), hl, List.cons_append, List.find?_cons_of_pos h]
  rfl

/-- A name that has just been the only answer is the answer to whatever it matches next. -/
theorem sticky (order : Phase → List Text) (ho : ValidOrder order) (m : Monster)
    (hr : Reachable order m) (hp : m.phase = .run) (a b n : Text) (ha : a ≠ []) (hb : b ≠ [])
    (hma : matching a = [n]) (hmb : n ∈ matching b) (hng : n ≠ t!"FIBS_Goodbye") :
    ((m.makeCookie order a).2.makeCookie order b).1 = .ok n := by
  have hi := reachable_inv order ho m hr
  obtain ⟨m', h1, hi', h3, h4⟩ := makeCookie_spec m order a ho hi
  obtain ⟨h5, h6⟩ := answer_one order ho m hi hp a n ha hma
  have hp' : m'.phase = .run := by rw [h3, hp, h6, phaseAfter, if_neg hng]
  have hl := h4 (by rw [hp', hp]) n (by simp [ha]) h5
  obtain ⟨m'', h7, _⟩ := makeCookie_spec m' order b ho hi'
  rw [h1]
  dsimp only
  rw [h7]
  dsimp only
  rw [answer_top order m' n _ hl b hb (by
    rw [hp']
    exact (mem_matching b n (matching_names b n hmb)).2 hmb)]

end Bglib
