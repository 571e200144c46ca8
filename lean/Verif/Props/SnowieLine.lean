import Verif.Lemmas.SnowieLine
import Verif.Props.Snowie
/-
C73: the lines of a match record are recognised for what they are.
-/
namespace Bglib
open Spec Snowie

private theorem one_of (t : Text) : IsBlank t ∨ IsMatchLength t ∨ IsGameHeader t ∨
    (IsPlayerHeader t ∧ ¬ IsMatchLength t ∧ ¬ IsGameHeader t) ∨ (∃ k, IsMoves k t ∧ ¬ IsPlayerHeader t) ∨
    (IsResult t ∧ ¬ IsPlayerHeader t) ∨
    (¬ IsBlank t ∧ ¬ IsMatchLength t ∧ ¬ IsGameHeader t ∧ ¬ IsPlayerHeader t ∧ (∀ k, ¬ IsMoves k t) ∧ ¬ IsResult t) := by
  by_cases h0 : IsBlank t
  · exact .inl h0
  by_cases h1 : IsMatchLength t
  · exact .inr (.inl h1)
  by_cases h2 : IsGameHeader t
  · exact .inr (.inr (.inl h2))
  by_cases h3 : IsPlayerHeader t
  · exact .inr (.inr (.inr (.inl ⟨h3, h1, h2⟩)))
  by_cases h4 : ∃ k, IsMoves k t
  · obtain ⟨k, h4⟩ := h4
    exact .inr (.inr (.inr (.inr (.inl ⟨k, h4, h3⟩))))
  by_cases h5 : IsResult t
  · exact .inr (.inr (.inr (.inr (.inr (.inl ⟨h5, h3⟩)))))
  exact .inr (.inr (.inr (.inr (.inr (.inr ⟨h0, h1, h2, h3, fun k hk => h4 ⟨k, hk⟩, h5⟩)))))

/-- **C73** Of which kind a line is, for every text: what it has to begin with.  The forms exclude each other but for
headers with the names of the players, which may look like any of the others. -/
theorem C73_kinds (t : Text) :
    (kindOf t = .empty ↔ IsBlank t) ∧
    (kindOf t = .matchLength ↔ IsMatchLength t) ∧
    (kindOf t = .gameHeader ↔ IsGameHeader t) ∧
    (kindOf t = .playerHeader ↔ IsPlayerHeader t ∧ ¬ IsMatchLength t ∧ ¬ IsGameHeader t) ∧
    (∀ n, kindOf t = .moves n ↔ IsMoves n t ∧ ¬ IsPlayerHeader t) ∧
    (kindOf t = .result ↔ IsResult t ∧ ¬ IsPlayerHeader t) ∧
    (kindOf t = .bad ↔ ¬ IsBlank t ∧ ¬ IsMatchLength t ∧ ¬ IsGameHeader t ∧ ¬ IsPlayerHeader t ∧
      (∀ k, ¬ IsMoves k t) ∧ ¬ IsResult t) := by
  have key : ∀ (P : Prop) (k : Kind), (P → kindOf t = k) →
      (kindOf t = k → IsBlank t → P) → (kindOf t = k → IsMatchLength t → P) → (kindOf t = k → IsGameHeader t → P) →
      (kindOf t = k → (IsPlayerHeader t ∧ ¬ IsMatchLength t ∧ ¬ IsGameHeader t) → P) →
      (kindOf t = k → (∃ k, IsMoves k t ∧ ¬ IsPlayerHeader t) → P) → (kindOf t = k → (IsResult t ∧ ¬ IsPlayerHeader t) → P) →
      (kindOf t = k → (¬ IsBlank t ∧ ¬ IsMatchLength t ∧ ¬ IsGameHeader t ∧ ¬ IsPlayerHeader t ∧ (∀ k, ¬ IsMoves k t) ∧
        ¬ IsResult t) → P) → (kindOf t = k ↔ P) := by
    intro P k h0 h1 h2 h3 h4 h5 h6 h7
    refine ⟨fun e => ?_, h0⟩
    rcases one_of t with h | h | h | h | h | h | h
    · exact h1 e h
    · exact h2 e h
    · exact h3 e h
    · exact h4 e h
    · exact h5 e h
    · exact h6 e h
    · exact h7 e h
  have nb : ∀ {k : Kind} {Q : Prop}, k ≠ .empty → kindOf t = k → IsBlank t → Q :=
    fun hk e h => absurd (e.symm.trans (kind_blank h)) hk
  have nm : ∀ {k : Kind} {Q : Prop}, k ≠ .matchLength → kindOf t = k → IsMatchLength t → Q :=
    fun hk e h => absurd (e.symm.trans (kind_matchLength h)) hk
  have ng : ∀ {k : Kind} {Q : Prop}, k ≠ .gameHeader → kindOf t = k → IsGameHeader t → Q :=
    fun hk e h => absurd (e.symm.trans (kind_gameHeader h)) hk
  have np : ∀ {k : Kind} {Q : Prop}, k ≠ .playerHeader → kindOf t = k →
      (IsPlayerHeader t ∧ ¬ IsMatchLength t ∧ ¬ IsGameHeader t) → Q :=
    fun hk e h => absurd (e.symm.trans (kind_playerHeader h.1 h.2.1 h.2.2)) hk
  have nv : ∀ {k : Kind} {Q : Prop}, (∀ n, k ≠ .moves n) → kindOf t = k → (∃ k, IsMoves k t ∧ ¬ IsPlayerHeader t) → Q := by
    rintro k Q hk e ⟨n, h, h'⟩
    exact absurd (e.symm.trans (kind_moves h h')) (hk n)
  have nr : ∀ {k : Kind} {Q : Prop}, k ≠ .result → kindOf t = k → (IsResult t ∧ ¬ IsPlayerHeader t) → Q :=
    fun hk e h => absurd (e.symm.trans (kind_result h.1 h.2)) hk
  have nn : ∀ {k : Kind} {Q : Prop}, k ≠ .bad → kindOf t = k → (¬ IsBlank t ∧ ¬ IsMatchLength t ∧ ¬ IsGameHeader t ∧
      ¬ IsPlayerHeader t ∧ (∀ k, ¬ IsMoves k t) ∧ ¬ IsResult t) → Q :=
    fun hk e h => absurd (e.symm.trans (kind_bad h.1 h.2.1 h.2.2.1 h.2.2.2.1 h.2.2.2.2.1 h.2.2.2.2.2)) hk
  refine ⟨?_, ?_, ?_, ?_, fun n => ?_, ?_, ?_⟩
  · exact key _ _ kind_blank (fun _ h => h) (nm (by decide)) (ng (by decide)) (np (by decide)) (nv (by simp))
      (nr (by decide)) (nn (by decide))
  · exact key _ _ kind_matchLength (nb (by decide)) (fun _ h => h) (ng (by decide)) (np (by decide)) (nv (by simp))
      (nr (by decide)) (nn (by decide))
  · exact key _ _ kind_gameHeader (nb (by decide)) (nm (by decide)) (fun _ h => h) (np (by decide)) (nv (by simp))
      (nr (by decide)) (nn (by decide))
  · exact key _ _ (fun h => kind_playerHeader h.1 h.2.1 h.2.2) (nb (by decide)) (nm (by decide)) (ng (by decide))
      (fun _ h => h) (nv (by simp)) (nr (by decide)) (nn (by decide))
  · refine key _ _ (fun h => kind_moves h.1 h.2) (nb (by simp)) (nm (by simp)) (ng (by simp)) (np (by simp)) ?_ (nr (by simp))
      (nn (by simp))
    rintro e ⟨m, h, h'⟩
    have := e.symm.trans (kind_moves h h')
    cases this
    exact ⟨h, h'⟩
  · exact key _ _ (fun h => kind_result h.1 h.2) (nb (by decide)) (nm (by decide)) (ng (by decide)) (np (by decide))
      (nv (by simp)) (fun _ h => h) (nn (by decide))
  · exact key _ _ (fun h => kind_bad h.1 h.2.1 h.2.2.1 h.2.2.2.1 h.2.2.2.2.1 h.2.2.2.2.2) (nb (by decide)) (nm (by decide))
      (ng (by decide)) (np (by decide)) (nv (by simp)) (nr (by decide)) (fun _ h => h)

example : kindOf t!"\n" = .empty ∧ kindOf t!" 7 point match\n" = .matchLength ∧ kindOf t!" Game 1\n" = .gameHeader ∧
    kindOf t!" akaBOB,1810 : 0                  nori,1722 : 0\n" = .playerHeader ∧
    kindOf t!" 14)  Takes                          54: 8/4 7/2\n" = .moves 14 ∧
    kindOf t!"      Wins 4 points\n" = .result ∧ kindOf t!"hello\n" = .bad := by decide +kernel

/-! ### Records -/

attribute [local irreducible] kindOf

private theorem decimal_Digits (n : Nat) : Digits (decimal n) := by
  refine ⟨decimal_ne_nil n, fun c hc => ?_⟩
  obtain ⟨d, hd, rfl⟩ := decimal_digits hc
  have : ∀ d < 10, '0' ≤ digitChar d ∧ digitChar d ≤ '9' := by decide
  exact this d hd

private theorem seat_player {s : Seat} (h : s.Good) : IsPlayer s.text := by
  refine ⟨s.name, _, decimal s.score, h.1, h.2, ?_, decimal_Digits _, rfl⟩
  cases s.rating with
  | none => exact .inl rfl
  | some r => exact .inr ⟨decimal r, decimal_Digits r, rfl⟩

/-- What stands behind the name of a player. -/
private def Behind (r : Text) : Prop := (∃ q, r = ',' :: q) ∨ ∃ q, r = ' ' :: ':' :: q

/-- A beginning without comma and colon that does not end in a blank ends within the name. -/
private theorem within_name {p a r s : Text} (hr : Behind r) (hp : ∀ c ∈ p, c ≠ ',' ∧ c ≠ ':') (hl : p.getLast? ≠ some ' ')
    (e : a ++ r = p ++ s) : ∃ q, a = p ++ q := by
  rcases List.append_eq_append_iff.1 e with ⟨m, rfl, h2⟩ | ⟨m, rfl, -⟩
  · cases m with
    | nil => exact ⟨[], by simp⟩
    | cons c m =>
      rcases hr with ⟨q, rfl⟩ | ⟨q, rfl⟩
      · have := (List.cons.inj h2).1
        subst this
        exact absurd rfl (hp ',' (by simp)).1
      · obtain ⟨rfl, h3⟩ := List.cons.inj h2
        cases m with
        | nil => exact absurd (by simp) hl
        | cons c m =>
          have := (List.cons.inj h3).1
          subst this
          exact absurd rfl (hp ':' (by simp)).2
  · exact ⟨m, rfl⟩

private theorem digit_plain {c : Char} (h : '0' ≤ c ∧ c ≤ '9') : c ≠ ',' ∧ c ≠ ':' := by
  constructor <;> rintro rfl <;> revert h <;> decide

private theorem clear_line {s : Seat} (h : s.Clear) {r : Text} (hr : Behind r) :
    ¬ IsMatchLength (' ' :: (s.name ++ r)) ∧ ¬ IsGameHeader (' ' :: (s.name ++ r)) := by
  constructor
  · rintro ⟨d, rest, hd, e⟩
    obtain ⟨q, hq⟩ := within_name (a := ' ' :: s.name) (p := t!" " ++ d ++ t!" point match") hr (by
      intro c hc
      simp only [List.mem_append] at hc
      rcases hc with (hc | hc) | hc
      · revert c; decide
      · exact digit_plain (hd.2 c hc)
      · revert c; decide) (by rw [List.getLast?_append]; simp) e
    exact h.2 ⟨d, q, hd, hq⟩
  · rintro ⟨n, d, rest, hd, e⟩
    obtain ⟨x, d', rfl⟩ := List.exists_cons_of_ne_nil hd.1
    have hx := hd.2 x (by simp)
    obtain ⟨q, hq⟩ := within_name (a := ' ' :: s.name) (p := List.replicate n ' ' ++ t!"Game " ++ [x]) (s := d' ++ rest) hr (by
      intro c hc
      simp only [List.mem_append] at hc
      rcases hc with (hc | hc) | hc
      · rw [(List.mem_replicate.1 hc).2]; decide
      · revert c; decide
      · rw [List.mem_singleton.1 hc]; exact digit_plain hx) (by
        rw [List.getLast?_append]
        simp only [List.getLast?_singleton, Option.some_or, ne_eq, Option.some.injEq]
        exact digit_ne_blank hx) (by simpa using e)
    exact h.1 ⟨n, [x], q, ⟨by simp, by simpa using hx⟩, hq⟩

private theorem header_line (a b : Seat) (n : Nat) (r : Text) : ∃ q, Behind q ∧
    t!" " ++ a.text ++ List.replicate n ' ' ++ b.text ++ r = ' ' :: (a.name ++ q) := by
  unfold Seat.text
  cases a.rating with
  | none => exact ⟨' ' :: ':' :: (' ' :: (decimal a.score ++ List.replicate n ' ' ++ b.text ++ r)), .inr ⟨_, rfl⟩, by simp [Seat.text]⟩
  | some x =>
    exact ⟨',' :: (decimal x ++ (t!" : " ++ decimal a.score ++ List.replicate n ' ' ++ b.text ++ r)), .inl ⟨_, rfl⟩, by simp [Seat.text]⟩

private theorem header_kind {a b : Seat} (ha : a.Good) (hc : a.Clear) (hb : b.Good) (n : Nat) (r : Text) :
    kindOf (t!" " ++ a.text ++ List.replicate n ' ' ++ b.text ++ r) = .playerHeader := by
  obtain ⟨q, hq, e⟩ := header_line a b n r
  refine kind_playerHeader ⟨_, n, _, r, seat_player ha, seat_player hb, rfl⟩ ?_ ?_ <;> rw [e]
  · exact (clear_line hc hq).1
  · exact (clear_line hc hq).2

/-- **C73** The line with two players, whatever their names: it is taken for one exactly if the first name does not begin
like another line. -/
theorem C73_players (a b : Seat) (ha : a.Good) (hb : b.Good) (n : Nat) (r : Text) :
    kindOf (t!" " ++ a.text ++ List.replicate n ' ' ++ b.text ++ r) = .playerHeader ↔ a.Clear := by
  refine ⟨fun h => ?_, fun h => header_kind ha h hb n r⟩
  have hk := (C73_kinds (t!" " ++ a.text ++ List.replicate n ' ' ++ b.text ++ r)).2.2.2.1.1 h
  obtain ⟨q, hq, e⟩ := header_line a b n r
  rw [e] at hk
  constructor
  · rintro ⟨m, d, rest, hd, e'⟩
    exact hk.2.2 ⟨m, d, rest ++ q, hd, by rw [show ' ' :: (a.name ++ q) = (' ' :: a.name) ++ q from rfl, e']; simp⟩
  · rintro ⟨d, rest, hd, e'⟩
    exact hk.2.1 ⟨d, rest ++ q, hd, by rw [show ' ' :: (a.name ++ q) = (' ' :: a.name) ++ q from rfl, e']; simp⟩

private theorem player_infix {t : Text} (h : IsPlayerHeader t) : t!" : " <:+: t := by
  obtain ⟨a, n, b, rest, ⟨name, rating, score, _, _, _, _, rfl⟩, _, rfl⟩ := h
  exact ⟨t!" " ++ name ++ rating, score ++ List.replicate n ' ' ++ b ++ rest, by simp⟩

private theorem infix_cons {x c : Char} {l r : Text} (h : x :: l <:+: c :: r) (hne : x ≠ c) : x :: l <:+: r := by
  rcases List.infix_cons_iff.1 h with h | h
  · exact absurd (List.cons_prefix_cons.1 h).1 hne
  · exact h

private theorem infix_digits {d r : Text} (hd : ∀ c ∈ d, '0' ≤ c ∧ c ≤ '9') (h : t!" : " <:+: d ++ r) : t!" : " <:+: r := by
  induction d with
  | nil => exact h
  | cons c d ih =>
    exact ih (fun x hx => hd x (by simp [hx])) (infix_cons h (fun e => digit_ne_blank (hd c (by simp)) e.symm))

private theorem infix_snoc {t : Text} (h : t!" : " <:+: t ++ t!"\n") : t!" : " <:+: t := by
  induction t with
  | nil => exact absurd h (by decide)
  | cons c t ih =>
    rcases List.infix_cons_iff.1 (by simpa using h) with h | h
    · obtain ⟨r, e⟩ := h
      match t, e with
      | [], e => cases e
      | [x], e => simp at e
      | x :: y :: t, e =>
        simp only [List.cons_append, List.cons.injEq] at e
        obtain ⟨rfl, rfl, rfl, _⟩ := e
        exact ⟨[], t, rfl⟩
    · exact (ih (by simpa using h)).trans (List.suffix_cons c t).isInfix

private theorem infix_blanks {n : Nat} {c : Char} {r : Text} (h1 : c ≠ ' ') (h2 : c ≠ ':')
    (h : t!" : " <:+: List.replicate n ' ' ++ c :: r) : t!" : " <:+: c :: r := by
  induction n with
  | zero => exact h
  | succ n ih =>
    rcases List.infix_cons_iff.1 h with h | h
    · cases n with
      | zero => simp [List.cons_prefix_cons, h2.symm] at h
      | succ n => simp [List.replicate_succ, List.cons_prefix_cons] at h
    · exact ih h

private theorem turn_kind (n b : Nat) (t : Text) (h : ¬ t!" : " <:+: ' ' :: t) : kindOf (turnLine n (b, t)) = .moves n := by
  refine kind_moves ⟨b, decimal n, t ++ t!"\n", decimal_Digits n, pyInt_decimal n, by simp [turnLine]⟩ fun hp => h ?_
  have hd := (decimal_Digits n).2
  have h1 : t!" : " <:+: List.replicate b ' ' ++ (decimal n ++ (')' :: ' ' :: (t ++ t!"\n"))) := by
    simpa [turnLine] using player_infix hp
  have h2 : t!" : " <:+: decimal n ++ (')' :: ' ' :: (t ++ t!"\n")) := by
    obtain ⟨c, d, e⟩ := List.exists_cons_of_ne_nil (decimal_Digits n).1
    rw [e] at h1 hd ⊢
    exact infix_blanks (digit_ne_blank (hd c (by simp)))
      (by rintro rfl; exact absurd (hd ':' (by simp)) (by decide)) h1
  exact infix_snoc (t := ' ' :: t) (infix_cons (infix_digits hd h2) (by decide))

private theorem result_kind (b p : Nat) : kindOf (List.replicate b ' ' ++ t!"Wins " ++ decimal p ++ t!" points\n") = .result := by
  refine kind_result ⟨b, decimal p, t!"s\n", decimal_Digits p, by simp⟩ fun hp => ?_
  have h1 : t!" : " <:+: List.replicate b ' ' ++ 'W' :: (t!"ins " ++ (decimal p ++ t!" points\n")) := by
    simpa using player_infix hp
  have h2 := infix_blanks (by decide) (by decide) h1
  obtain ⟨c, d, e⟩ := List.exists_cons_of_ne_nil (decimal_Digits p).1
  have hd := (decimal_Digits p).2
  rw [e] at h2 hd
  have h3 := infix_cons (infix_cons (infix_cons (infix_cons h2 (by decide)) (by decide)) (by decide)) (by decide)
  have h4 := infix_blanks (n := 1) (digit_ne_blank (hd c (by simp)))
    (by rintro rfl; exact absurd (hd ':' (by simp)) (by decide)) h3
  exact absurd (infix_digits hd h4) (by decide)

private theorem turns_kinds (n : Nat) (l : List (Nat × Text)) (h : ∀ t ∈ l, ¬ t!" : " <:+: ' ' :: t.2) :
    (turnLines n l).map kindOf = (List.range l.length).map fun i => Kind.moves (i + n) := by
  induction l generalizing n with
  | nil => rfl
  | cons t l ih =>
    rw [turnLines, List.map_cons, turn_kind n t.1 t.2 (h t (by simp)), ih (n + 1) (fun t ht => h t (by simp [ht])),
      List.length_cons, List.range_succ_eq_map, List.map_cons, List.map_map, Nat.zero_add]
    congr 1
    refine List.map_congr_left fun i _ => ?_
    simp only [Function.comp_apply, Nat.succ_eq_add_one, Kind.moves.injEq]
    omega

private theorem game_kinds {g : Spec.Game} (h : g.Good) :
    g.lines.map kindOf = gameKinds g.turns.length g.result.isSome 1 := by
  have h1 : kindOf (t!" Game " ++ decimal g.number ++ t!"\n") = .gameHeader :=
    kind_gameHeader ⟨1, decimal g.number, t!"\n", decimal_Digits _, by simp⟩
  have h2 : kindOf t!"\n" = .empty := kind_blank (by unfold IsBlank; decide)
  unfold Game.lines gameKinds
  rw [List.map_append, List.map_append, List.map_append, turns_kinds 1 _ h.2.2.2, List.map_cons, h1, List.map_cons,
    header_kind h.1.1 h.1.2 h.2.1, List.map_cons, h2]
  cases g.result with
  | none => rfl
  | some r => simp only [List.map_cons, result_kind]; rfl

private theorem game_isGame {g : Spec.Game} (h : g.Good) : IsGame ((g.lines.map lineOf).map (·.kind)) := by
  refine ⟨g.turns.length, g.result.isSome, 1, ?_, ?_⟩
  · exact List.length_pos_iff.2 h.2.2.1
  · rw [← game_kinds h, List.map_map]
    rfl

private theorem written_map (l : List Text) : written (l.map lineOf) = l.filter fun t => kindOf t ≠ .empty := by
  unfold written
  rw [List.filter_map, List.map_map]
  exact List.map_id'' (fun _ => rfl) _

/-- **C73** A record as it is written is accepted, and cut into as many games: each with the match length before it,
and nothing lost but the empty line at its end. -/
theorem C73_record_partial (length : Nat) (gs : List Spec.Game) (hne : gs ≠ []) (hg : ∀ g ∈ gs, g.Good) :
    validate 0 ((recordLines length gs).map lineOf) = .ok () ∧
    chop ((recordLines length gs).map lineOf) =
      ⟨gs.map fun g => t!" " ++ decimal length ++ t!" point match\n" ++ '\n' :: g.lines.dropLast.flatten, none⟩ := by
  have h0 : kindOf (t!" " ++ decimal length ++ t!" point match\n") = .matchLength :=
    kind_matchLength ⟨decimal length, t!"\n", decimal_Digits _, by simp⟩
  have h2 : kindOf t!"\n" = .empty := kind_blank (by unfold IsBlank; decide)
  have hk : ((recordLines length gs).map lineOf) =
      lineOf (t!" " ++ decimal length ++ t!" point match\n") ::
        ([lineOf t!"\n"] ++ (gs.map fun g => g.lines.map lineOf).flatten) := by
    unfold recordLines
    rw [List.map_cons, List.map_cons, List.map_flatten, List.map_map]
    rfl
  have hgs : ∀ g ∈ (gs.map fun g => g.lines.map lineOf), IsGame (g.map (·.kind)) := by
    intro x hx
    obtain ⟨g, h, rfl⟩ := List.mem_map.1 hx
    exact game_isGame (hg g h)
  rw [hk]
  constructor
  · refine (C58_partial 0 _ (C33_accepts_partial _ ⟨1, (gs.map fun g => (g.lines.map lineOf).map (·.kind)), ?_, ?_, ?_⟩)).2
      (.inl rfl)
    · simpa using hne
    · intro x hx
      obtain ⟨g, h, rfl⟩ := List.mem_map.1 hx
      exact game_isGame (hg g h)
    · rw [List.map_cons, List.map_append, List.map_flatten, List.map_map]
      simp only [List.map_cons, List.map_nil, lineOf, h0, h2]
      rfl
  · rw [C34_partial _ h0 _ (by simp [lineOf, h2]) _ (by simpa using hne) hgs, List.map_map]
    refine congrArg (fun l => Yields.mk l none) (List.map_congr_left fun g h => ?_)
    simp only [Function.comp_apply, written_map]
    have hd : g.lines.dropLast ++ [t!"\n"] = g.lines := by
      unfold Game.lines
      rw [List.dropLast_concat]
    have hf : g.lines.dropLast.filter (fun t => kindOf t ≠ .empty) = g.lines.dropLast := by
      refine List.filter_eq_self.2 fun t ht => ?_
      have hm : kindOf t ∈ (g.lines.dropLast).map kindOf := List.mem_map_of_mem ht
      have hk := game_kinds (hg g h)
      have hk' : g.lines.dropLast.map kindOf ++ [Kind.empty] = gameKinds g.turns.length g.result.isSome 1 := by
        rw [← hk]
        conv => rhs; rw [← hd]
        rw [List.map_append, List.map_cons, h2]
        rfl
      unfold gameKinds at hk'
      rw [List.append_cancel_right hk'] at hm
      have : kindOf t ≠ Kind.empty := by
        rintro e
        rw [e] at hm
        cases g.result <;> simp at hm
      simpa using this
    rw [← hd, List.filter_append, hf, List.dropLast_concat]
    simp [h2, lineOf]

private theorem clear_of {s : Seat} (h : kindOf (' ' :: s.name) ≠ .gameHeader ∧ kindOf (' ' :: s.name) ≠ .matchLength) : s.Clear :=
  ⟨fun x => h.1 ((C73_kinds _).2.2.1.2 x), fun x => h.2 ((C73_kinds _).2.1.2 x)⟩

/-- C73_record_partial has instances, and so have both sides of C73_players. -/
example : Game.Good ⟨1, (⟨t!"Game boy 3", some 1810, 0⟩, ⟨t!"nori", none, 3⟩), 18, [(2, t!"41: 13/9 6/5"), (2, t!" Doubles => 2")],
    some (6, 4)⟩ := by
  refine ⟨⟨⟨by decide, by decide⟩, clear_of (by decide +kernel)⟩, ⟨by decide, by decide⟩, by decide, by decide⟩

example : Seat.Good ⟨t!"Game 3", none, 0⟩ ∧ ¬ Seat.Clear ⟨t!"Game 3", none, 0⟩ :=
  ⟨⟨by decide, by decide⟩, fun h => h.1 ⟨1, t!"3", [], ⟨by decide, by decide⟩, rfl⟩⟩

/-- **C73** is false for what stands behind the number of a turn: it is not looked at. -/
theorem C73_false_moves (n b : Nat) (t : Text) (h : ¬ t!" : " <:+: ' ' :: t) :
    kindOf (List.replicate b ' ' ++ decimal n ++ t!") " ++ t ++ t!"\n") = .moves n := turn_kind n b t h

example : kindOf t!"  1) 99: 0/77 hello\n" = .moves 1 := C73_false_moves 1 2 t!"99: 0/77 hello" (by decide)

/-- **C73** is false for names with a comma or a colon, and for players called `Game` and a number. -/
theorem C73_false_names :
    kindOf t!" Smith, John : 0      Bob : 0\n" = .bad ∧ kindOf t!" a:b : 0      Bob : 0\n" = .bad ∧
    kindOf t!" Game 1 : 0      Bob : 0\n" = .gameHeader ∧ kindOf t!" 1) a : 0 b : 0\n" = .playerHeader := by
  decide +kernel

end Bglib
