import Verif.Lemmas.Ambiguous
import Verif.Props.Cookie
/-
C54: which messages get answers that depend on what came before.
-/
namespace Bglib
open Spec

/-- **C54**: two different names of the run phase that match the same message are one of the pairs listed in `ambiguous`. -/
theorem C54_pairs (msg a b : Text) (ha : matchesName runTable msg a = true) (hb : matchesName runTable msg b = true)
    (hab : a ≠ b) : (a, b) ∈ ambiguous ∨ (b, a) ∈ ambiguous := by
  obtain ⟨i, e, p, he, rfl, hp, hmp⟩ := compiled_of_name msg a ha
  obtain ⟨j, f, q, hf, rfl, hq, hmq⟩ := compiled_of_name msg b hb
  rw [matchItems_iff] at hmp hmq
  rcases Nat.lt_trichotomy i j with h | h | h
  · exact clear_all i j h e f he hf p q hp hq (meet_sound _ _ _ _ hmp hmq)
  · subst h; rw [he] at hf; exact absurd (congrArg Prod.fst (Option.some.inj hf)) hab
  · exact (clear_all j i h f e hf he q p hq hp (meet_sound _ _ _ _ hmq hmp)).symm

/-- **C54** (the part that holds, exactly): two monsters in the run phase with whatever histories and dictionary orders answer a message
alike, unless it matches both names of one of the listed pairs. -/
theorem C54_where_partial (order order' : Phase → List Text) (ho : ValidOrder order) (ho' : ValidOrder order') (m m' : Monster)
    (hr : Reachable order m) (hr' : Reachable order' m') (hp : m.phase = .run) (hp' : m'.phase = .run) (msg : Text)
    (h : ∀ x ∈ ambiguous, ¬ (matchesName runTable msg x.1 = true ∧ matchesName runTable msg x.2 = true)) :
    (m.makeCookie order msg).1 = (m'.makeCookie order' msg).1 := by
  obtain ⟨c, h1, h2⟩ := C30_answer order ho m hr msg
  obtain ⟨d, h3, h4⟩ := C30_answer order' ho' m' hr' msg
  rw [h1, h3]
  rw [hp] at h2
  rw [hp'] at h4
  congr 1
  rcases h2 with ⟨_, e1, rfl⟩ | ⟨e1, h2⟩
  · rcases h4 with ⟨_, _, rfl⟩ | ⟨e2, _⟩
    · rfl
    · exact absurd ⟨rfl, e1⟩ e2
  · rcases h4 with ⟨_, e2, _⟩ | ⟨_, h4⟩
    · exact absurd ⟨rfl, e2⟩ e1
    · rcases h2 with h2 | ⟨rfl, h2⟩ <;> rcases h4 with h4 | ⟨rfl, h4⟩
      · apply Classical.byContradiction
        intro hne
        rcases C54_pairs msg c d h2 h4 hne with hx | hx
        · exact h _ hx ⟨h2, h4⟩
        · exact h _ hx ⟨h4, h2⟩
      · have := h4 c (names_of_matches .run msg c h2)
        rw [h2] at this; exact absurd this.symm Bool.false_ne_true
      · have := h2 d (names_of_matches .run msg d h4)
        rw [h4] at this; exact absurd this.symm Bool.false_ne_true
      · rfl

/-- Messages for each contested pair: one only for the first name, one only for the second, one for both. -/
private def contests : List (Text × Text × Text) := [
  (t!"a starts watching b.", t!"a is watching b", t!"a is watching you."),
  (t!"a accept the double. The cube shows 2. x", t!"You accept the double. The cube shows 2.", t!"You accept the double. The cube shows 2. x"),
  (t!"a accept the double. The cube shows 2. x", t!"a accepts the double.", t!"a accepts the double. The cube shows 2. x"),
  (t!"a - b 3 point match", t!"a - b (unlimited match", t!"a - b (unlimited, 5 point match"),
  (t!"5 a - - 0", t!"1 accounts", t!"5 bytes - - 0"),
  (t!"13 a ", t!"1 accounts", t!"13 bytes "), (t!"12 a ", t!"1 accounts", t!"12 bytes "),
  (t!"14 a ", t!"1 accounts", t!"14 bytes "), (t!"15 a ", t!"1 accounts", t!"15 bytes "),
  (t!"16 a ", t!"1 accounts", t!"16 bytes "), (t!"17 a ", t!"1 accounts", t!"17 bytes "),
  (t!"18 a ", t!"1 accounts", t!"18 bytes "), (t!"19 a ", t!"1 accounts", t!"19 bytes "),
  (t!"7 a ", t!"1 accounts", t!"7 bytes "), (t!"8 a ", t!"1 accounts", t!"8 bytes "),
  (t!"9 a 1 ", t!"1 accounts", t!"9 bytes 1 "), (t!"10 a", t!"1 accounts", t!"10 bytes"),
  (t!"11 a", t!"1 accounts", t!"11 bytes"),
  (t!"** a is refusing games.", t!"** Users", t!"** User is refusing games."),
  (t!"** a didn't invite you.", t!"** Users", t!"** User didn't invite you."),
  (t!"** a is not playing.", t!"** Users", t!"** User is not playing."),
  (t!"** a won't listen to you.", t!"** Users", t!"** User won't listen to you.")]

private theorem contests_fit : ∀ x ∈ contested.zip contests, matching x.2.1 = [x.1.1] ∧ matching x.2.2.1 = [x.1.2] ∧
    x.1.1 ∈ matching x.2.2.2 ∧ x.1.2 ∈ matching x.2.2.2 ∧ x.2.1 ≠ [] ∧ x.2.2.1 ≠ [] ∧ x.2.2.2 ≠ [] ∧
    x.1.1 ≠ t!"FIBS_Goodbye" ∧ x.1.2 ≠ t!"FIBS_Goodbye" := by decide +kernel

private theorem mem_zip_left {α β : Type} (l : List α) (r : List β) (h : l.length ≤ r.length) (a : α) (ha : a ∈ l) : ∃ b, (a, b) ∈ l.zip r := by
  induction l generalizing r with
  | nil => simp at ha
  | cons x l ih =>
    cases r with
    | nil => simp at h
    | cons y r =>
      rcases List.mem_cons.1 ha with rfl | ha
      · exact ⟨y, by simp⟩
      · obtain ⟨b, hb⟩ := ih r (by simpa using h) ha
        exact ⟨b, by simp [hb]⟩

/-- **C54** fails for each contested pair, whatever the dictionary order: the same message is answered by one name or the other
depending on the message before it. -/
theorem C54_contested (x : Text × Text) (hx : x ∈ contested) :
    ∃ before before' msg, ∀ order, ValidOrder order → ∀ m, Reachable order m → m.phase = .run →
      ((m.makeCookie order before).2.makeCookie order msg).1 = .ok x.1 ∧
      ((m.makeCookie order before').2.makeCookie order msg).1 = .ok x.2 := by
  obtain ⟨⟨u, v, w⟩, hz⟩ := mem_zip_left contested contests (by decide) x hx
  obtain ⟨h1, h2, h3, h4, h5, h6, h7, h8, h9⟩ := contests_fit _ hz
  exact ⟨u, v, w, fun order ho m hr hp => ⟨sticky order ho m hr hp _ _ _ h5 h7 h1 h3 h8, sticky order ho m hr hp _ _ _ h6 h7 h2 h4 h9⟩⟩

/-- **C54**: the messages of the first name of an eclipsed pair are all messages of the second. -/
theorem C54_within (x : Text × Text) (hx : x ∈ eclipsed) (msg : Text) (h : matchesName runTable msg x.1 = true) :
    matchesName runTable msg x.2 = true := by
  have chk : (eclipsed.all fun x => runEffective.any fun f => f.1 == x.2 && runEffective.all fun e => !(e.1 == x.1) ||
      e.2.all fun p => f.2.any fun q => match compileRe p, compileRe q with
        | some p, some q => p.take q.length == q
        | _, _ => false) = true := by decide +kernel
  have := List.all_eq_true.1 chk x hx
  obtain ⟨⟨n, qs⟩, hf, h1⟩ := List.any_eq_true.1 this
  rw [Bool.and_eq_true, beq_iff_eq] at h1
  obtain ⟨rfl, h2⟩ := h1
  obtain ⟨ps, he, p, hp, hm⟩ := matchesName_mem _ _ _ h
  rw [runTable_eq] at he
  have h3 := List.all_eq_true.1 h2 _ he
  simp only [beq_self_eq_true, Bool.not_true, Bool.false_or] at h3
  obtain ⟨q, hq, h4⟩ := List.any_eq_true.1 (List.all_eq_true.1 h3 p hp)
  rw [← runTable_eq] at hf
  rw [show matchesName runTable msg x.2 = qs.any (fun p => reMatch p msg) from matches_of_mem .run _ _ hf _]
  refine List.any_eq_true.2 ⟨q, hq, ?_⟩
  unfold reMatch at hm ⊢
  cases hcp : compileRe p with
  | none => rw [hcp] at hm; cases hm
  | some p' =>
    cases hcq : compileRe q with
    | none => rw [hcp, hcq] at h4; cases h4
    | some q' =>
      rw [hcp] at hm
      rw [hcp, hcq] at h4
      dsimp only at hm h4 ⊢
      rw [matchItems_iff] at hm ⊢
      refine reads_prefix q' (p'.drop q'.length) msg ?_
      rw [show q' ++ p'.drop q'.length = p' by
        conv => lhs; lhs; rw [← eq_of_beq h4]
        exact List.take_append_drop _ _]
      exact hm

private def eclipses : List (Text × Text) := [
  (t!"board:", t!"board:You:fred:1:0:0:2"), (t!"X:", t!"X: (1"), (t!"X:", t!"X: wins"), (t!"X:", t!"X: doubles"),
  (t!"X:", t!"X: accepts"), (t!"X:", t!"X: rejects"), (t!"** There is no one called", t!"** There is no one called a")]

private theorem eclipses_fit : ∀ x ∈ eclipsed.zip eclipses, matching x.2.1 = [x.1.2] ∧ x.1.1 ∈ matching x.2.2 ∧
    x.1.2 ∈ matching x.2.2 ∧ (∀ n ∈ matching x.2.2, n = x.1.1 ∨ n = x.1.2) ∧ x.2.1 ≠ [] ∧ x.2.2 ≠ [] ∧
    x.1.2 ≠ t!"FIBS_Goodbye" ∧ x.1.1 ∉ initialLast .run ∧ x.1.2 ∉ initialLast .run := by decide +kernel

/-- **C54** fails for each eclipsed pair: some message of the first name gets the second as answer in every monster that has just seen
a message of the second only. -/
theorem C54_eclipsed (x : Text × Text) (hx : x ∈ eclipsed) :
    ∃ before msg, matchesName runTable msg x.1 = true ∧ ∀ order, ValidOrder order → ∀ m, Reachable order m → m.phase = .run →
      ((m.makeCookie order before).2.makeCookie order msg).1 = .ok x.2 := by
  obtain ⟨⟨u, w⟩, hz⟩ := mem_zip_left eclipsed eclipses (by decide) x hx
  obtain ⟨h1, h2, h3, _, h5, h6, h7, _, _⟩ := eclipses_fit _ hz
  exact ⟨u, w, (mem_matching _ _ (matching_names _ _ h2)).2 h2, fun order ho m hr hp => sticky order ho m hr hp _ _ _ h5 h6 h1 h3 h7⟩

/-- **C54**: if the dictionary order has the second name of an eclipsed pair first, the first name is never an answer. -/
theorem C54_never (x : Text × Text) (hx : x ∈ eclipsed) (order : Phase → List Text) (ho : ValidOrder order)
    (p q r : List Text) (hq : order .run = p ++ x.2 :: q ++ x.1 :: r) (m : Monster) (hr : Reachable order m) (hp : m.phase = .run) (msg : Text) :
    (m.makeCookie order msg).1 ≠ .ok x.1 := by
  obtain ⟨⟨u, w⟩, hz⟩ := mem_zip_left eclipsed eclipses (by decide) x hx
  have hfit := eclipses_fit _ hz
  have hne : ∀ x ∈ eclipsed, x.1 ≠ t!"FIBS_Empty" ∧ x.1 ≠ t!"FIBS_Unknown" := by decide +kernel
  have hn := (never_last order ho x.1 x.2 hfit.2.2.2.2.2.2.2.1 (fun msg => C54_within x hx msg) p q r hq m hr hp).2 msg
  obtain ⟨m', h1, _⟩ := makeCookie_spec m order msg ho (reachable_inv order ho m hr)
  rw [h1]
  intro h
  have h := Except.ok.inj h
  unfold answer at h
  split at h
  · exact (hne x hx).1 h.symm
  · cases hf : firstMatch m order msg with
    | none => rw [hf, hp] at h; exact (hne x hx).2 h.symm
    | some n => rw [hf] at h; exact hn (by rw [hf]; exact congrArg some h)

/-- **C54**: if the dictionary order has the first name of an eclipsed pair first, some message gets the first name as answer when it
comes right after the message of the day. -/
theorem C54_sometimes (x : Text × Text) (hx : x ∈ eclipsed) :
    ∃ msg, ∀ order, ValidOrder order → ∀ p q r, order .run = p ++ x.1 :: q ++ x.2 :: r →
      ((Monster.new.after order [t!"3", t!"4"]).makeCookie order msg).1 = .ok x.1 := by
  obtain ⟨⟨u, w⟩, hz⟩ := mem_zip_left eclipsed eclipses (by decide) x hx
  obtain ⟨_, h2, h3, h4, _, h6, _, h8, h9⟩ := eclipses_fit _ hz
  refine ⟨w, fun order ho p q r hq => ?_⟩
  obtain ⟨h10, h11⟩ := reach_run order ho
  obtain ⟨m', h12, _⟩ := makeCookie_spec _ order w ho (reachable_inv order ho _ h10)
  have hl : (Monster.new.after order [t!"3", t!"4"]).lastMatch = initialLast .run := by
    have r1 : Reachable order (Monster.new.makeCookie order t!"3").2 := .step _ _ .new
    have e1 : (Monster.new.makeCookie order t!"3").2.phase = .motd := (C30_begin order ho _ .new rfl t!"3").2 (Or.inl rfl)
    rcases makeCookie_last _ order t!"4" ho (reachable_inv order ho _ r1) with ⟨_, g⟩ | ⟨g, _⟩
    · exact h11 ▸ g
    · exact absurd (h11.symm.trans (g.trans e1)) (by decide)
  rw [h12]
  unfold answer
  rw [if_neg (by simp [h6])]
  unfold firstMatch
  rw [h11, hl, hq]
  have names : ∀ n, matchesName runTable w n = true → n = x.1 ∨ n = x.2 := fun n hn =>
    h4 n ((mem_matching w n (names_of_matches .run w n hn)).1 hn)
  have nd : (order .run).Nodup := (ho .run).nodup_iff.2 (table_nodup .run)
  rw [hq, show p ++ x.1 :: q ++ x.2 :: r = p ++ (x.1 :: q ++ x.2 :: r) by simp, List.nodup_append] at nd
  rw [List.find?_append, List.find?_eq_none.2 (by
    intro n hn hm
    rcases names n hm with rfl | rfl
    · exact h8 hn
    · exact h9 hn), Option.none_or, show p ++ x.1 :: q ++ x.2 :: r = p ++ (x.1 :: q ++ x.2 :: r) by simp, List.find?_append, List.find?_eq_none.2 (by
    intro n hn hm
    rcases names n hm with e | e
    · exact nd.2.2 n hn x.1 (by simp) e
    · exact nd.2.2 n hn x.2 (by simp) e), Option.none_or, List.cons_append,
    List.find?_cons_of_pos (show matchesName (tableOf .run) w x.1 = true from (mem_matching _ _ (matching_names _ _ h2)).2 h2)]
  rfl

/-- C54_pairs and C54_contested have instances. -/
example : matching t!"12 bytes hello" = [t!"FIBS_Stat", t!"CLIP_SAYS"] ∧ (t!"CLIP_SAYS", t!"FIBS_Stat") ∈ contested := by decide +kernel
/-- C54_where_partial has instances. -/
example : ∀ x ∈ ambiguous, ¬ (x.1 ∈ matching t!"You roll 3 and 1" ∧ x.2 ∈ matching t!"You roll 3 and 1") := by decide +kernel
/-- C54_within, C54_eclipsed, C54_never and C54_sometimes have instances: the order of the class body, and that order turned round. -/
example : (∃ p q r, runEffective.map (·.1) = p ++ t!"FIBS_Board" :: q ++ t!"FIBS_BAD_Board" :: r) ∧ (t!"FIBS_Board", t!"FIBS_BAD_Board") ∈ eclipsed ∧
    matching t!"board:You:fred:1" = [t!"FIBS_Board", t!"FIBS_BAD_Board"] :=
  ⟨⟨[], [], (runEffective.map (·.1)).drop 2, by decide +kernel⟩, by decide +kernel, by decide +kernel⟩

end Bglib
