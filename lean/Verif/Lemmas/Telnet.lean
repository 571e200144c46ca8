import Verif.Spec.Telnet
/-
Lemmas on reading from the network (C113).
-/
namespace Bglib.Telnet
open Bglib Spec

/-! ### Commands of Telnet -/

theorem run_append (k : Cook) (a b : Text) :
    k.run (a ++ b) = (((k.run a).1.run b).1, (k.run a).2 ++ ((k.run a).1.run b).2) := by
  induction a generalizing k with
  | nil => rfl
  | cons c a ih => simp only [List.cons_append, Cook.run, ih, List.append_assoc]

/-- What is still to come from a connection. -/
def Conn.left (s : Conn) : Text := s.cooked ++ (s.cook.run s.chunks.flatten).2

theorem left_new (chunks : List Text) : (Conn.new chunks).left = streamText chunks := rfl

/-! ### Searching -/

theorem cut_eq {p : Text} : ∀ {t a b : Text}, cutAfter p t = some (a, b) → t = a ++ b
  | [], a, b, h => by
    unfold cutAfter at h
    split at h
    · cases h; rfl
    · cases h
  | c :: t, a, b, h => by
    unfold cutAfter at h
    split at h
    · next e =>
      cases h
      exact ((List.take_append_drop p.length (c :: t)).symm.trans (by rw [e]))
    · cases e : cutAfter p t with
      | none => rw [e] at h; cases h
      | some x =>
        rw [e] at h
        cases h
        rw [cut_eq (a := x.1) (b := x.2) e]
        rfl

theorem cut_ends {p : Text} : ∀ {t a b : Text}, cutAfter p t = some (a, b) → ∃ u, a = u ++ p
  | [], a, b, h => by
    unfold cutAfter at h
    split at h
    · next e => cases h; exact ⟨[], by rw [e]; rfl⟩
    · cases h
  | c :: t, a, b, h => by
    unfold cutAfter at h
    split at h
    · cases h; exact ⟨[], rfl⟩
    · cases e : cutAfter p t with
      | none => rw [e] at h; cases h
      | some x =>
        rw [e] at h
        cases h
        obtain ⟨u, hu⟩ := cut_ends (a := x.1) (b := x.2) e
        exact ⟨c :: u, by rw [hu]; rfl⟩

theorem cut_none {p : Text} (hp : p ≠ []) : ∀ {t : Text}, cutAfter p t = none ↔ ¬ Occurs p t
  | [] => by
    unfold cutAfter
    rw [if_neg hp]
    refine ⟨fun _ ⟨u, v, h⟩ => hp ?_, fun _ => rfl⟩
    simp at h
    exact h.2.1
  | c :: t => by
    unfold cutAfter
    split
    · next e =>
      refine ⟨fun h => (by cases h), fun h => absurd ⟨[], (c :: t).drop p.length, ?_⟩ h⟩
      exact (List.take_append_drop p.length (c :: t)).symm.trans (by rw [e]; rfl)
    · next e =>
      rw [Option.map_eq_none_iff, cut_none hp]
      refine ⟨fun h ⟨u, v, k⟩ => ?_, fun h ⟨u, v, k⟩ => h ⟨c :: u, v, by rw [k]; rfl⟩⟩
      cases u with
      | nil => exact e (by rw [k]; simp)
      | cons d u =>
        simp only [List.cons_append, List.cons.injEq] at k
        exact h ⟨u, v, k.2⟩

theorem occurs_right {p t u : Text} (h : Occurs p t) : Occurs p (t ++ u) := by
  obtain ⟨a, b, rfl⟩ := h
  exact ⟨a, b ++ u, by simp⟩

theorem occurs_left {p t u : Text} (h : Occurs p t) : Occurs p (u ++ t) := by
  obtain ⟨a, b, rfl⟩ := h
  exact ⟨u ++ a, b, by simp⟩

theorem cut_more {p : Text} : ∀ {t a b : Text}, cutAfter p t = some (a, b) → ∀ x, cutAfter p (t ++ x) = some (a, b ++ x)
  | [], a, b, h, x => by
    unfold cutAfter at h
    split at h
    · next e =>
      cases h
      subst e
      cases x with
      | nil => rfl
      | cons c x => simp [cutAfter]
    · cases h
  | c :: t, a, b, h, x => by
    have hl : p.length ≤ (c :: t).length := by
      obtain ⟨u, rfl⟩ := cut_ends h
      rw [cut_eq h]; simp; omega
    unfold cutAfter at h
    rw [List.cons_append, cutAfter]
    rw [← List.cons_append, List.take_append_of_le_length hl, List.drop_append_of_le_length hl]
    split at h
    · next e => rw [if_pos e]; cases h; rfl
    · next e =>
      rw [if_neg e]
      cases e : cutAfter p t with
      | none => rw [e] at h; cases h
      | some y =>
        rw [e] at h
        cases h
        rw [cut_more (a := y.1) (b := y.2) e]
        rfl

/-- The text is found at its end only. -/
theorem cut_first {p : Text} : ∀ {t a b : Text}, cutAfter p t = some (a, b) → ∀ u v, a = u ++ p ++ v → v = []
  | [], a, b, h, u, v, k => by
    unfold cutAfter at h
    split at h
    · cases h
      simp at k
      exact k.2.2
    · cases h
  | c :: t, a, b, h, u, v, k => by
    unfold cutAfter at h
    split at h
    · cases h
      have := congrArg List.length k
      simp at this
      exact List.eq_nil_of_length_eq_zero (by omega)
    · next e =>
      cases e' : cutAfter p t with
      | none => rw [e'] at h; cases h
      | some x =>
        rw [e'] at h
        cases h
        cases u with
        | nil =>
          exfalso
          refine e ?_
          rw [cut_eq (a := x.1) (b := x.2) e']
          rw [show c :: (x.1 ++ x.2) = (c :: x.1) ++ x.2 from rfl, k]
          simp
        | cons d u =>
          simp only [List.cons_append, List.cons.injEq] at k
          exact cut_first (a := x.1) (b := x.2) e' u v k.2

/-! ### Lines -/

theorem crlf_nil : CRLF ≠ [] := by decide
theorem prompt_nil : PROMPT ≠ [] := by decide

theorem take_crlf {c : Char} {t : Text} (h : ∀ u : Text, c = '\r' → t = '\n' :: u → False) :
    ¬ (c :: t).take CRLF.length = CRLF := by
  intro e
  match t with
  | [] => exact absurd e (by simp [CRLF])
  | d :: t =>
    simp [CRLF] at e
    exact h t e.1 (by rw [e.2])

theorem lines_cut (t : Text) : crlfLines t = match cutAfter CRLF t with
    | none => ([], t)
    | some (a, b) => (a.take (a.length - 2) :: (crlfLines b).1, (crlfLines b).2) := by
  induction t using crlfLines.induct with
  | case1 => rfl
  | case2 t ih => simp [crlfLines, cutAfter, CRLF]
  | case3 c t hne r hr ih =>
    rw [crlfLines.eq_3 c t hne, cutAfter, if_neg (take_crlf hne)]
    rw [hr] at ih ⊢
    cases e : cutAfter CRLF t with
    | none => rw [e] at ih; simp at ih; simp [ih]
    | some x => rw [e] at ih; simp at ih
  | case4 c t hne l ls r hr ih =>
    rw [crlfLines.eq_3 c t hne, cutAfter, if_neg (take_crlf hne)]
    rw [hr] at ih ⊢
    cases e : cutAfter CRLF t with
    | none => rw [e] at ih; simp at ih
    | some x =>
      rw [e] at ih
      simp only [Prod.mk.injEq, List.cons.injEq] at ih
      obtain ⟨⟨h1, h2⟩, h3⟩ := ih
      obtain ⟨u, hu⟩ := cut_ends (a := x.1) (b := x.2) e
      have hlen : 2 ≤ x.1.length := by rw [hu]; simp [CRLF]
      simp only [Option.map_some, List.length_cons, h2, h3, h1]
      rw [show x.1.length + 1 - 2 = (x.1.length - 2) + 1 by omega, List.take_succ_cons]

/-! ### `expect` -/

/-- What `expect` gives is the beginning of what is to come. -/
theorem go_left (closed : Bool) : ∀ (cs : List Text) (q : Text) (k : Cook) {n : Int} {a : Text} {s' : Conn},
    expectGo closed cs q k = (some (.got n a), s') →
    q ++ (k.run cs.flatten).2 = a ++ s'.left ∧
      ((n = 0 ∧ cutAfter CRLF (a ++ s'.left) = some (a, s'.left)) ∨
       (n = 1 ∧ ¬ Occurs CRLF a ∧ cutAfter PROMPT (a ++ s'.left) = some (a, s'.left)) ∨
       (n = -1 ∧ closed = true ∧ a ≠ [] ∧ s'.left = [] ∧ ¬ Occurs CRLF a ∧ ¬ Occurs PROMPT a))
  | cs, q, k, n, a, s', h => by
    unfold expectGo look at h
    cases e1 : cutAfter CRLF q with
    | some x =>
      rw [e1] at h
      cases h
      have e := cut_eq (a := x.1) (b := x.2) e1
      have e2 : q ++ (k.run cs.flatten).2 = x.1 ++ Conn.left ⟨x.2, k, cs⟩ := by
        rw [Conn.left, ← List.append_assoc, ← e]
      refine ⟨e2, .inl ⟨rfl, ?_⟩⟩
      rw [← e2, cut_more (a := x.1) (b := x.2) e1]
      rfl
    | none =>
      rw [e1] at h
      cases e3 : cutAfter PROMPT q with
      | some x =>
        rw [e3] at h
        cases h
        have e := cut_eq (a := x.1) (b := x.2) e3
        have e2 : q ++ (k.run cs.flatten).2 = x.1 ++ Conn.left ⟨x.2, k, cs⟩ := by
          rw [Conn.left, ← List.append_assoc, ← e]
        refine ⟨e2, .inr (.inl ⟨rfl, fun o => ?_, ?_⟩)⟩
        · exact (cut_none crlf_nil).1 e1 (by rw [e]; exact occurs_right o)
        · rw [← e2, cut_more (a := x.1) (b := x.2) e3]
          rfl
      | none =>
        rw [e3] at h
        match cs, h with
        | [], h =>
          dsimp only at h
          split at h
          · next hc =>
            split at h
            · cases h
            · next hq =>
              cases h
              refine ⟨by simp [Conn.left, Cook.run], .inr (.inr ⟨rfl, hc, hq, rfl, ?_, ?_⟩)⟩
              · exact (cut_none crlf_nil).1 e1
              · exact (cut_none prompt_nil).1 e3
          · cases h
        | c :: cs, h =>
          have := go_left closed cs _ _ h
          rw [List.flatten_cons, run_append, ← List.append_assoc]
          exact this

/-- When `expect` raises an exception nothing is left. -/
theorem go_raised (closed : Bool) : ∀ (cs : List Text) (q : Text) (k : Cook) {e : PyErr} {s' : Conn},
    expectGo closed cs q k = (some (.raised e), s') →
    q ++ (k.run cs.flatten).2 = [] ∧ e = .eofError ∧ closed = true
  | cs, q, k, e, s', h => by
    unfold expectGo look at h
    cases e1 : cutAfter CRLF q with
    | some x => rw [e1] at h; cases h
    | none =>
      rw [e1] at h
      cases e3 : cutAfter PROMPT q with
      | some x => rw [e3] at h; cases h
      | none =>
        rw [e3] at h
        match cs, h with
        | [], h =>
          dsimp only at h
          split at h
          · next hc =>
            split at h
            · next hq => cases h; exact ⟨by rw [hq]; rfl, rfl, hc⟩
            · cases h
          · cases h
        | c :: cs, h =>
          have := go_raised closed cs _ _ h
          rw [List.flatten_cons, run_append, ← List.append_assoc]
          exact this

/-- When `expect` waits there is neither pattern in what is left. -/
theorem go_waits (closed : Bool) : ∀ (cs : List Text) (q : Text) (k : Cook) {s' : Conn},
    expectGo closed cs q k = (none, s') →
    ¬ Occurs CRLF (q ++ (k.run cs.flatten).2) ∧ ¬ Occurs PROMPT (q ++ (k.run cs.flatten).2) ∧ closed = false
  | cs, q, k, s', h => by
    unfold expectGo look at h
    cases e1 : cutAfter CRLF q with
    | some x => rw [e1] at h; cases h
    | none =>
      rw [e1] at h
      cases e3 : cutAfter PROMPT q with
      | some x => rw [e3] at h; cases h
      | none =>
        rw [e3] at h
        match cs, h with
        | [], h =>
          dsimp only at h
          split at h
          · split at h <;> cases h
          · next hc =>
            rw [show q ++ (k.run ([] : List Text).flatten).2 = q by simp [Cook.run]]
            exact ⟨(cut_none crlf_nil).1 e1, (cut_none prompt_nil).1 e3, by simpa using hc⟩
        | c :: cs, h =>
          have := go_waits closed cs _ _ h
          rw [List.flatten_cons, run_append, ← List.append_assoc]
          exact this

theorem expect_left {closed : Bool} {s s' : Conn} {n : Int} {a : Text} (h : expect closed s = (some (.got n a), s')) :
    s.left = a ++ s'.left ∧
      ((n = 0 ∧ cutAfter CRLF s.left = some (a, s'.left)) ∨
       (n = 1 ∧ ¬ Occurs CRLF a ∧ cutAfter PROMPT s.left = some (a, s'.left)) ∨
       (n = -1 ∧ closed = true ∧ a ≠ [] ∧ s'.left = [] ∧ ¬ Occurs CRLF a ∧ ¬ Occurs PROMPT a)) := by
  have := go_left closed s.chunks s.cooked s.cook h
  rw [show s.cooked ++ (s.cook.run s.chunks.flatten).2 = s.left from rfl] at this
  rw [this.1]
  exact ⟨rfl, this.2⟩

theorem expect_raised {closed : Bool} {s s' : Conn} {e : PyErr} (h : expect closed s = (some (.raised e), s')) :
    s.left = [] ∧ e = .eofError ∧ closed = true :=
  go_raised closed s.chunks s.cooked s.cook h

theorem expect_waits {closed : Bool} {s s' : Conn} (h : expect closed s = (none, s')) :
    ¬ Occurs CRLF s.left ∧ ¬ Occurs PROMPT s.left ∧ closed = false :=
  go_waits closed s.chunks s.cooked s.cook h

/-- The loop of the listener ends, and what it gets is determined. -/
theorem receives_exists (closed : Bool) : ∀ (n : Nat) (s : Conn), s.left.length < n → ∃ rs, Receives closed s rs
  | 0, _, h => absurd h (by omega)
  | n + 1, s, h => by
    cases e : expect closed s with
    | mk r s' =>
      match r, e with
      | none, e => exact ⟨[], .waits e⟩
      | some (.raised x), e => exact ⟨_, .raised e⟩
      | some (.got m a), e =>
        have k := expect_left e
        have ha : a ≠ [] := by
          rcases k.2 with ⟨-, h2⟩ | ⟨-, -, h2⟩ | ⟨-, -, h2, -⟩
          · obtain ⟨u, hu⟩ := cut_ends h2
            rw [hu]; simp [CRLF]
          · obtain ⟨u, hu⟩ := cut_ends h2
            rw [hu]; simp [PROMPT]
          · exact h2
        have hl : s'.left.length < n := by
          have := congrArg List.length k.1
          rw [List.length_append] at this
          have := List.length_pos_iff.2 ha
          omega
        obtain ⟨rs, hr⟩ := receives_exists closed n s' hl
        exact ⟨_, .got e hr⟩

theorem receives_unique {closed : Bool} {s : Conn} {a b : List Recv} (ha : Receives closed s a) (hb : Receives closed s b) :
    a = b := by
  induction ha generalizing b with
  | waits h => cases hb <;> simp_all
  | raised h => cases hb <;> simp_all
  | got h hr ih =>
    cases hb with
    | waits h' => rw [h] at h'; cases h'
    | raised h' => rw [h] at h'; cases h'
    | got h' hr' =>
      rw [h] at h'
      cases h'
      rw [ih hr']

/-! ### Messages -/

theorem cut_line {l : Text} (h : ¬ Occurs CRLF l) (r : Text) : cutAfter CRLF (l ++ CRLF ++ r) = some (l ++ CRLF, r) := by
  induction l with
  | nil => simp [cutAfter, CRLF]
  | cons c l ih =>
    rw [List.cons_append, List.cons_append, cutAfter, if_neg, ih fun o => h (occurs_left (u := [c]) o)]
    · rfl
    · refine take_crlf fun u hc hu => ?_
      subst hc
      match l, h, hu with
      | [], _, hu => simp [CRLF] at hu
      | d :: l, h, hu =>
        simp only [List.cons_append, List.cons.injEq] at hu
        refine h ⟨[], l, ?_⟩
        rw [hu.1]
        rfl

theorem well_line {t a b : Text} (h : cutAfter CRLF t = some (a, b)) : ∃ l, a = l ++ CRLF ∧ ¬ Occurs CRLF l := by
  obtain ⟨l, hl⟩ := cut_ends h
  refine ⟨l, hl, fun ⟨u, v, k⟩ => ?_⟩
  have := cut_first h u (v ++ CRLF) (by rw [hl, k]; simp)
  simp [CRLF] at this

theorem well_prompt {t a b : Text} (h : cutAfter PROMPT t = some (a, b)) : EndsInPrompt a :=
  ⟨cut_ends h, cut_first h⟩

theorem cut_whole {t : Text} (h : EndsInPrompt t) : cutAfter PROMPT t = some (t, []) := by
  obtain ⟨⟨u, hu⟩, h2⟩ := h
  cases e : cutAfter PROMPT t with
  | none => exact absurd ⟨u, [], by rw [hu]; simp⟩ ((cut_none prompt_nil).1 e)
  | some x =>
    have h3 := cut_eq (a := x.1) (b := x.2) e
    obtain ⟨w, hw⟩ := cut_ends (a := x.1) (b := x.2) e
    have := h2 w x.2 (by rw [h3, hw])
    rw [this, List.append_nil] at h3
    rw [h3, ← this]

theorem well (closed : Bool) {s : Conn} {rs : List Recv} (h : Receives closed s rs) : ∀ r ∈ rs, CutWell r := by
  induction h with
  | waits h => simp
  | raised h =>
    intro r hr
    rw [List.mem_singleton] at hr
    subst hr
    exact (expect_raised h).2.1
  | got h hr ih =>
    intro r hr
    rcases List.mem_cons.1 hr with rfl | hr
    · rcases (expect_left h).2 with ⟨h1, h2⟩ | ⟨h1, h3, h2⟩ | ⟨h1, -, h2, -, h3, h4⟩
      · exact .inl ⟨h1, well_line h2⟩
      · exact .inr (.inl ⟨h1, well_prompt h2, h3⟩)
      · exact .inr (.inr ⟨h1, h2, h3, h4⟩)
    · exact ih r hr

theorem lossless {s : Conn} {rs : List Recv} (h : Receives true s rs) : (rs.map given).flatten = s.left := by
  induction h with
  | waits h => exact absurd (expect_waits h).2.2 (by decide)
  | raised h => rw [(expect_raised h).1]; rfl
  | got h hr ih => rw [(expect_left h).1, ← ih]; rfl

theorem lossless_waiting {s : Conn} {rs : List Recv} (h : Receives false s rs) :
    ∃ r, s.left = (rs.map given).flatten ++ r ∧ ¬ Occurs CRLF r ∧ ¬ Occurs PROMPT r := by
  induction h with
  | waits h => exact ⟨_, rfl, (expect_waits h).1, (expect_waits h).2.1⟩
  | raised h => exact absurd (expect_raised h).2.2 (by decide)
  | got h hr ih =>
    obtain ⟨r, h1, h2⟩ := ih
    exact ⟨r, by rw [(expect_left h).1, h1]; simp [given], h2⟩

/-- Without a prompt. -/
theorem messages_lines {s : Conn} {rs : List Recv} (h : Receives true s rs) (hp : ¬ Occurs PROMPT s.left) :
    rs.map Message.of = wholeMessages s.left := by
  induction h with
  | waits h => exact absurd (expect_waits h).2.2 (by decide)
  | raised h => rw [(expect_raised h).1]; rfl
  | @got s s' n a rs h hr ih =>
    have hl := (expect_left h).1
    have ih := ih fun o => hp (by rw [hl]; exact occurs_left o)
    unfold wholeMessages
    rw [lines_cut]
    rcases (expect_left h).2 with ⟨h1, h2⟩ | ⟨h1, h3, h2⟩ | ⟨h1, -, h2, h5, h3, h4⟩
    · subst h1
      rw [h2, List.map_cons, ih]
      rfl
    · exact absurd (well_prompt h2).1 fun ⟨u, hu⟩ => hp ⟨u, s'.left, by rw [hl, hu]⟩
    · subst h1
      rw [h5, List.append_nil] at hl
      rw [hl, (cut_none crlf_nil).2 h3, List.map_cons, ih, h5]
      simp only [List.map_nil, List.nil_append, if_neg h2]
      rfl

theorem waiting_lines {s : Conn} {rs : List Recv} (h : Receives false s rs) (hp : ¬ Occurs PROMPT s.left) :
    rs.map Message.of = (crlfLines s.left).1.map .text := by
  induction h with
  | waits h => rw [lines_cut, (cut_none crlf_nil).2 (expect_waits h).1]; rfl
  | raised h => exact absurd (expect_raised h).2.2 (by decide)
  | @got s s' n a rs h hr ih =>
    have hl := (expect_left h).1
    have ih := ih fun o => hp (by rw [hl]; exact occurs_left o)
    rw [lines_cut]
    rcases (expect_left h).2 with ⟨h1, h2⟩ | ⟨h1, h3, h2⟩ | ⟨h1, hc, -⟩
    · subst h1
      rw [h2, List.map_cons, ih]
      rfl
    · exact absurd (well_prompt h2).1 fun ⟨u, hu⟩ => hp ⟨u, s'.left, by rw [hl, hu]⟩
    · cases hc

/-! ### A prompt at the end of what was sent -/

/-- The text of the chunks before `cs2` that was not given out yet. -/
def Before (cs2 : List Text) (t : Text) (k2 : Cook) (s : Conn) : Prop :=
  ∃ d, s.chunks = d ++ cs2 ∧ s.cooked ++ (s.cook.run d.flatten).2 = t ∧ (s.cook.run d.flatten).1 = k2

theorem go_before (closed : Bool) (cs2 : List Text) (k2 : Cook) : ∀ (d : List Text) (q : Text) (k : Cook) {t : Text},
    q ++ (k.run d.flatten).2 = t → (k.run d.flatten).1 = k2 → EndsInPrompt t →
    ∃ n a s', expectGo closed (d ++ cs2) q k = (some (.got n a), s') ∧
      ((∃ b, cutAfter CRLF t = some (a, b) ∧ n = 0 ∧ Before cs2 b k2 s') ∨
       (cutAfter CRLF t = none ∧ n = 1 ∧ a = t ∧ Before cs2 [] k2 s'))
  | d, q, k, t, ht, hk, hp => by
    unfold expectGo look
    cases e1 : cutAfter CRLF q with
    | some x =>
      refine ⟨0, x.1, ⟨x.2, k, d ++ cs2⟩, rfl, .inl ⟨x.2 ++ (k.run d.flatten).2, ?_, rfl, d, rfl, rfl, hk⟩⟩
      rw [← ht]
      exact cut_more (a := x.1) (b := x.2) e1 _
    | none =>
      cases e3 : cutAfter PROMPT q with
      | some x =>
        have e4 := cut_more (a := x.1) (b := x.2) e3 (k.run d.flatten).2
        rw [ht, cut_whole hp] at e4
        have e5 := Option.some.inj e4
        have e6 : x.1 = t := (congrArg Prod.fst e5).symm
        have e7 : x.2 ++ (k.run d.flatten).2 = [] := (congrArg Prod.snd e5).symm
        refine ⟨1, x.1, ⟨x.2, k, d ++ cs2⟩, rfl, .inr ⟨?_, rfl, e6, d, rfl, e7, hk⟩⟩
        have e8 := List.append_eq_nil_iff.1 e7
        rw [e8.2, List.append_nil] at ht
        rw [← ht]
        exact e1
      | none =>
        match d, ht, hk with
        | [], ht, hk =>
          simp only [List.flatten_nil, Cook.run, List.append_nil] at ht
          rw [ht, cut_whole hp] at e3
          cases e3
        | c :: d, ht, hk =>
          rw [List.flatten_cons, run_append] at ht hk
          rw [← List.append_assoc] at ht
          exact go_before closed cs2 k2 d _ _ ht hk hp

theorem ends_rest {t a b : Text} (h : EndsInPrompt t) (k : cutAfter CRLF t = some (a, b)) : EndsInPrompt b := by
  obtain ⟨⟨u, hu⟩, h2⟩ := h
  have e := cut_eq k
  refine ⟨?_, fun v w hw => h2 (a ++ v) w (by rw [e, hw]; simp)⟩
  obtain ⟨l, hl⟩ := cut_ends k
  have hlen : PROMPT.length ≤ b.length := by
    apply Classical.byContradiction
    intro hlt
    have h3 : u ++ PROMPT = l ++ CRLF ++ b := by rw [← hu, e, hl]
    have h4 : ∃ x, PROMPT = x ++ (['\n'] ++ b) := by
      have e1 : u ++ PROMPT = (l ++ ['\r']) ++ (['\n'] ++ b) := by rw [h3]; simp [CRLF]
      rcases List.append_eq_append_iff.1 e1 with ⟨x, h5, h6⟩ | ⟨x, h5, h6⟩
      · exact ⟨x, h6⟩
      · have := congrArg List.length h6
        simp only [List.length_append, List.length_singleton] at this
        have hx : x = [] := List.eq_nil_of_length_eq_zero (by omega)
        exact ⟨[], by rw [hx] at h6; simpa using h6.symm⟩
    obtain ⟨x, hx⟩ := h4
    have : '\n' ∈ PROMPT := by rw [hx]; simp
    exact absurd this (by decide)
  have h3 : a ++ b = u ++ PROMPT := by rw [← e, hu]
  rcases List.append_eq_append_iff.1 h3 with ⟨x, h5, h6⟩ | ⟨x, h5, h6⟩
  · exact ⟨x, h6⟩
  · have := congrArg List.length h6
    simp only [List.length_append] at this
    have hx : x = [] := List.eq_nil_of_length_eq_zero (by omega)
    exact ⟨[], by rw [hx] at h6; simpa using h6.symm⟩

theorem messages_prompt {closed : Bool} (cs2 : List Text) (k2 : Cook) : ∀ (n : Nat) (t : Text) (s : Conn) {rs : List Recv}, t.length < n →
    Before cs2 t k2 s → EndsInPrompt t → Receives closed s rs →
    ∃ s' rs', Receives closed s' rs' ∧ s'.left = (k2.run cs2.flatten).2 ∧
      rs.map Message.of = (crlfLines t).1.map .text ++ [.text (crlfLines t).2] ++ rs'.map Message.of
  | 0, _, _, _, h, _, _, _ => absurd h (by omega)
  | n + 1, t, s, rs, hn, ⟨d, hd, ht, hk⟩, hp, hr => by
    obtain ⟨m, a, s', h1, h2⟩ := go_before closed cs2 k2 d s.cooked s.cook ht hk hp
    rw [← hd] at h1
    have hrest : ∃ rs', Receives closed s' rs' ∧ rs = .got m a :: rs' := by
      cases hr with
      | waits h => rw [expect, h1] at h; cases h
      | raised h => rw [expect, h1] at h; cases h
      | got h hr => rw [expect, h1] at h; cases h; exact ⟨_, hr, rfl⟩
    obtain ⟨rs', h3, rfl⟩ := hrest
    rw [lines_cut]
    rcases h2 with ⟨b, h4, rfl, h5⟩ | ⟨h4, rfl, rfl, d', h5, h6, h7⟩
    · have hlen : b.length < n := by
        obtain ⟨l, hl⟩ := cut_ends h4
        have := congrArg List.length (cut_eq h4)
        rw [hl] at this
        simp [CRLF] at this
        omega
      obtain ⟨s2, rs2, h8, h9, h10⟩ := messages_prompt cs2 k2 n b s' hlen h5 (ends_rest hp h4) h3
      refine ⟨s2, rs2, h8, h9, ?_⟩
      rw [h4, List.map_cons, h10]
      rfl
    · refine ⟨s', rs', h3, ?_, ?_⟩
      · rw [Conn.left, h5, List.flatten_append, run_append, h7, ← List.append_assoc, h6]
        rfl
      · rw [h4]
        rfl

/-! ### A single line -/

theorem go_whole (closed : Bool) {l r : Text} (hl : ¬ Occurs CRLF l) : ∀ (cs : List Text) (q : Text) (k : Cook),
    q ++ (k.run cs.flatten).2 = l ++ CRLF ++ r →
    ((∃ s', expectGo closed cs q k = (some (.got 0 (l ++ CRLF)), s')) ↔
      ∀ i, Occurs PROMPT (q ++ (k.run (cs.take i).flatten).2) → (l ++ CRLF) <+: (q ++ (k.run (cs.take i).flatten).2))
  | cs, q, k, h => by
    unfold expectGo look
    cases e1 : cutAfter CRLF q with
    | some x =>
      have e2 := cut_more (a := x.1) (b := x.2) e1 (k.run cs.flatten).2
      rw [h, cut_line hl] at e2
      have e3 : l ++ CRLF = x.1 := congrArg Prod.fst (Option.some.inj e2)
      refine iff_of_true ⟨⟨x.2, k, cs⟩, by rw [e3]⟩ fun i _ => ?_
      rw [e3, cut_eq (a := x.1) (b := x.2) e1, List.append_assoc]
      exact List.prefix_append _ _
    | none =>
      have hno : ¬ (l ++ CRLF) <+: q := by
        rintro ⟨w, hw⟩
        exact (cut_none crlf_nil).1 e1 ⟨l, w, hw.symm⟩
      cases e3 : cutAfter PROMPT q with
      | some x =>
        refine iff_of_false (by rintro ⟨s', h⟩; cases h) fun k2 => hno ?_
        have o : Occurs PROMPT q := Classical.byContradiction fun o => by
          rw [(cut_none prompt_nil).2 o] at e3; cases e3
        have := k2 0 (by simpa [Cook.run] using o)
        simpa [Cook.run] using this
      | none =>
        have o := (cut_none prompt_nil).1 e3
        match cs, h with
        | [], h =>
          simp only [List.flatten_nil, Cook.run, List.append_nil] at h
          exact absurd ⟨r, h.symm⟩ hno
        | c :: cs, h =>
          rw [List.flatten_cons, run_append, ← List.append_assoc] at h
          refine (go_whole closed hl cs _ _ h).trans ⟨fun g i => ?_, fun g i => ?_⟩
          · match i with
            | 0 => intro o'; exact absurd (by simpa [Cook.run] using o') o
            | i + 1 =>
              have := g i
              rw [List.take_succ_cons, List.flatten_cons, run_append, ← List.append_assoc]
              exact this
          · have := g (i + 1)
            rw [List.take_succ_cons, List.flatten_cons, run_append, ← List.append_assoc] at this
            exact this

/-! ### Chunks of at most 50 -/

theorem next_length (k : Cook) (c : Char) : (k.next c).2.length ≤ 1 := by
  unfold Cook.next
  repeat' split
  all_goals simp

theorem run_length (k : Cook) (t : Text) : (k.run t).2.length ≤ t.length := by
  induction t generalizing k with
  | nil => simp [Cook.run]
  | cons c t ih =>
    have h1 := next_length k c
    have h2 := ih (k.next c).1
    simp only [Cook.run, List.length_append, List.length_cons]
    omega

theorem boundary_from : ∀ (cs : List Text) (k : Cook) (base N : Nat), (∀ c ∈ cs, c.length ≤ 50) → base < N →
    N ≤ base + (k.run cs.flatten).2.length →
    ∃ i, N ≤ base + (k.run (cs.take i).flatten).2.length ∧ base + (k.run (cs.take i).flatten).2.length < N + 50
  | [], k, base, N, _, hb, h => by simp [Cook.run] at h; omega
  | c :: cs, k, base, N, hc, hb, h => by
    have hl := run_length k c
    have hc1 := hc c List.mem_cons_self
    rw [List.flatten_cons, run_append, List.length_append] at h
    by_cases e : N ≤ base + (k.run c).2.length
    · refine ⟨1, ?_⟩
      simp only [List.take_succ_cons, List.take_zero, List.flatten_cons, List.flatten_nil, List.append_nil]
      omega
    · obtain ⟨i, h1, h2⟩ := boundary_from cs (k.run c).1 (base + (k.run c).2.length) N
        (fun d hd => hc d (List.mem_cons_of_mem _ hd)) (by omega) (by omega)
      refine ⟨i + 1, ?_⟩
      rw [List.take_succ_cons, List.flatten_cons, run_append, List.length_append]
      omega

theorem boundary (chunks : List Text) (N : Nat) (hc : ∀ c ∈ chunks, c.length ≤ 50) (h0 : 0 < N)
    (h : N ≤ (streamText chunks).length) :
    ∃ i, N ≤ (streamText (chunks.take i)).length ∧ (streamText (chunks.take i)).length < N + 50 := by
  have := boundary_from chunks .new 0 N hc h0 (by simpa [streamText] using h)
  simpa [streamText] using this

theorem stream_prefix (chunks : List Text) (i : Nat) : streamText (chunks.take i) <+: streamText chunks := by
  refine ⟨((Cook.new.run (chunks.take i).flatten).1.run (chunks.drop i).flatten).2, ?_⟩
  have e : chunks.flatten = (chunks.take i).flatten ++ (chunks.drop i).flatten := by
    rw [← List.flatten_append, List.take_append_drop]
  unfold streamText
  rw [e, run_append]

/-! ### Texts without commands -/

/-- No commands of Telnet, and nothing it leaves out. -/
theorem run_plain {t : Text} (h : Plain t) : Cook.new.run t = (.new, t) := by
  induction t with
  | nil => rfl
  | cons c t ih =>
    obtain ⟨h1, h2, h3⟩ := h c List.mem_cons_self
    have ih := ih fun d hd => h d (List.mem_cons_of_mem _ hd)
    have hn : Cook.new.next c = (.new, [c]) := by
      unfold Cook.next Cook.new
      simp [h1, h2, h3]
    rw [Cook.run, hn]
    simp only [ih]
    rfl

theorem stream_plain {chunks : List Text} (h : Plain chunks.flatten) : streamText chunks = chunks.flatten := by
  unfold streamText
  rw [run_plain h]

end Bglib.Telnet
