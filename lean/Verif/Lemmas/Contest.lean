import Verif.Lemmas.Stat
import Verif.Spec.Contest
/-
Lemmas for C115: tournaments among given players.
-/
namespace Bglib
open Spec Classical
variable {κ : Type} [DecidableEq κ]

/-- The players after the one at `r` has lost. -/
noncomputable def oneLess (players : Nat → Player) (r : Nat) : Nat → Player := fun i =>
  if i = r then ⟨(players i).lives - 1, (players i).rating⟩ else players i

/-- The state after `k`, at `r`, has lost; `l` and `m` are before and behind `k`. -/
noncomputable def beaten (c : Contest κ) (l m : List (κ × Nat)) (k : κ) (r : Nat) : Contest κ :=
  if (c.players r).lives ≤ 1 then ⟨oneLess c.players r, l ++ m, c.dead ++ [(k, r)], c.matchlength⟩
  else ⟨oneLess c.players r, l ++ (k, r) :: m, c.dead, c.matchlength⟩

theorem entry_ok (c : Contest κ) (k : κ) (h : k ∈ c.alive.map (·.1)) :
    ∃ r, c.entry k = .ok r ∧ (k, r) ∈ c.alive := by
  unfold Contest.entry
  cases hf : c.alive.find? (fun e => decide (e.1 = k)) with
  | none =>
    rw [List.find?_eq_none] at hf
    obtain ⟨e, he, rfl⟩ := List.mem_map.1 h
    exact absurd (hf e he) (by simp)
  | some e =>
    have h1 := List.mem_of_find?_eq_some hf
    have h2 := List.find?_some hf
    simp only [decide_eq_true_eq] at h2
    exact ⟨e.2, rfl, by rw [← h2]; exact h1⟩

theorem contest_lost (c : Contest κ) (k : κ) (hp : KeysOnce c) (h : k ∈ c.alive.map (·.1)) :
    ∃ l m r, c.alive = l ++ (k, r) :: m ∧ c.lost k = .ok (beaten c l m k r) := by
  obtain ⟨r, hr, hmem⟩ := entry_ok c k h
  obtain ⟨l, m, hlm⟩ := List.append_of_mem hmem
  have hn := hp
  unfold KeysOnce at hn
  rw [hlm] at hn
  simp only [List.map_append, List.map_cons, List.append_assoc, List.cons_append] at hn
  rw [List.nodup_middle] at hn
  obtain ⟨hn1, _⟩ := List.nodup_cons.1 hn
  simp only [List.mem_append, not_or] at hn1
  obtain ⟨hl, hm, hd⟩ := hn1
  have keep : ∀ m : List (κ × Nat), k ∉ m.map (·.1) → m.filter (fun e => decide (e.1 ≠ k)) = m := by
    intro m hm
    rw [List.filter_eq_self]
    intro e he
    simp only [ne_eq, decide_not, Bool.not_eq_eq_eq_not, Bool.not_true, decide_eq_false_iff_not]
    rintro rfl
    exact hm (List.mem_map_of_mem he)
  refine ⟨l, m, r, hlm, ?_⟩
  unfold Contest.lost beaten
  simp only [hr, bind, Except.bind, pure, Except.pure, if_true]
  by_cases hle : (c.players r).lives ≤ 1
  · rw [if_pos hle, if_pos (by omega), hlm]
    simp only [List.filter_append, List.filter_cons]
    rw [keep l hl, keep m hm, keep _ hd]
    simp
    rfl
  · rw [if_neg hle, if_neg (by omega), hlm]
    rfl

theorem beaten_all (c : Contest κ) (l m : List (κ × Nat)) (k : κ) (r : Nat) (h : c.alive = l ++ (k, r) :: m) :
    ((beaten c l m k r).alive ++ (beaten c l m k r).dead).Perm (c.alive ++ c.dead) := by
  unfold beaten
  rw [h]
  split
  · simp only [List.append_assoc, List.cons_append]
    refine List.Perm.append_left _ ?_
    rw [← List.append_assoc]
    exact List.perm_append_singleton _ _
  · exact List.Perm.refl _

theorem beaten_length (c : Contest κ) (l m : List (κ × Nat)) (k : κ) (r : Nat) :
    (beaten c l m k r).matchlength = c.matchlength := by unfold beaten; split <;> rfl

theorem beaten_players (c : Contest κ) (l m : List (κ × Nat)) (k : κ) (r : Nat) :
    (beaten c l m k r).players = oneLess c.players r := by unfold beaten; split <;> rfl

theorem beaten_stay (c : Contest κ) (l m : List (κ × Nat)) (k : κ) (r : Nat) (h : c.alive = l ++ (k, r) :: m)
    (k' : κ) (hk : k' ≠ k) (h' : k' ∈ c.alive.map (·.1)) : k' ∈ (beaten c l m k r).alive.map (·.1) := by
  rw [h] at h'
  unfold beaten
  split
  · simp only [List.map_append, List.map_cons, List.mem_append, List.mem_cons] at h' ⊢
    rcases h' with h' | h' | h'
    · exact Or.inl h'
    · exact absurd h' hk
    · exact Or.inr h'
  · exact h'

theorem beaten_count (c : Contest κ) (l m : List (κ × Nat)) (k : κ) (r : Nat) (h : c.alive = l ++ (k, r) :: m) :
    c.alive.length ≤ (beaten c l m k r).alive.length + 1 := by
  rw [h]
  unfold beaten
  split <;> simp <;> omega

theorem takes_le (p q : Nat → Player) (h : ∀ i, (q i).lives ≤ (p i).lives) (l : List (κ × Nat)) :
    (l.map fun e => max 1 (q e.2).lives.toNat).sum ≤ (l.map fun e => max 1 (p e.2).lives.toNat).sum := by
  induction l with
  | nil => simp
  | cons e l ih =>
    have := h e.2
    simp only [List.map_cons, List.sum_cons]
    omega

theorem oneLess_le (p : Nat → Player) (r i : Nat) : (oneLess p r i).lives ≤ (p i).lives := by
  unfold oneLess
  split
  · simp
  · exact Int.le_refl _

theorem beaten_takes (c : Contest κ) (l m : List (κ × Nat)) (k : κ) (r : Nat) (h : c.alive = l ++ (k, r) :: m) :
    takes (beaten c l m k r) + 1 ≤ takes c := by
  have h1 := takes_le (κ := κ) c.players (oneLess c.players r) (oneLess_le _ _) l
  have h2 := takes_le (κ := κ) c.players (oneLess c.players r) (oneLess_le _ _) m
  unfold takes
  rw [h]
  unfold beaten
  split
  · simp only [List.map_append, List.map_cons, List.sum_append, List.sum_cons]
    omega
  · next hl =>
    simp only [List.map_append, List.map_cons, List.sum_append, List.sum_cons]
    have : (oneLess c.players r r).lives = (c.players r).lives - 1 := by simp [oneLess]
    omega

/-- What is kept by every match is kept by a round and by a tournament. -/
structure Kept (P : Contest κ → Prop) : Prop where
  keys : ∀ c, P c → KeysOnce c
  len : ∀ c, P c → 0 ≤ c.matchlength
  step : ∀ c l m k r, P c → c.alive = l ++ (k, r) :: m → P (beaten c l m k r)

theorem contest_meet {P : Contest κ → Prop} (hP : Kept P) (c : Contest κ) (a b : κ) (coin : ℝ) (hc : P c)
    (ha : a ∈ c.alive.map (·.1)) (hb : b ∈ c.alive.map (·.1)) :
    ∃ k l m r, (k = a ∨ k = b) ∧ c.alive = l ++ (k, r) :: m ∧ c.meet a b coin = .ok (beaten c l m k r) := by
  obtain ⟨ra, ea, _⟩ := entry_ok c a ha
  obtain ⟨rb, eb, _⟩ := entry_ok c b hb
  unfold Contest.meet
  simp only [ea, eb, chanceOfFirst_eq _ _ _ (hP.len c hc), bind, Except.bind]
  split
  · obtain ⟨l, m, r, h1, h2⟩ := contest_lost c b (hP.keys c hc) hb
    exact ⟨b, l, m, r, Or.inr rfl, h1, h2⟩
  · obtain ⟨l, m, r, h1, h2⟩ := contest_lost c a (hP.keys c hc) ha
    exact ⟨a, l, m, r, Or.inl rfl, h1, h2⟩

theorem contest_pairs {P : Contest κ → Prop} (hP : Kept P) (xs : List κ) : ∀ (c : Contest κ) (coins : Nat → ℝ)
    (i : Nat), P c → xs.Nodup → (∀ k ∈ xs, k ∈ c.alive.map (·.1)) →
    ∃ c', c.pairs coins i xs = .ok c' ∧ P c' ∧ takes c' + xs.length / 2 ≤ takes c ∧
      c.alive.length ≤ c'.alive.length + xs.length / 2 := by
  induction xs using List.twoStepInduction with
  | nil => intro c coins i hc _ _; exact ⟨c, rfl, hc, by simp, by simp⟩
  | singleton x => intro c coins i hc _ _; exact ⟨c, rfl, hc, by simp, by simp⟩
  | cons_cons a b xs ih _ =>
    intro c coins i hc hnd hmem
    obtain ⟨k, l, m, r, hk, he, hm⟩ := contest_meet hP c a b (coins i) hc (hmem a (by simp)) (hmem b (by simp))
    simp only [List.nodup_cons, List.mem_cons, not_or] at hnd
    obtain ⟨c', q0, q1, q2, q3⟩ := ih (beaten c l m k r) coins (i + 1) (hP.step c l m k r hc he) hnd.2.2 (by
      intro k' hk'
      refine beaten_stay c l m k r he k' ?_ (hmem k' (by simp [hk']))
      rintro rfl
      rcases hk with rfl | rfl
      · exact hnd.1.2 hk'
      · exact hnd.2.1 hk')
    have t1 := beaten_takes c l m k r he
    have t2 := beaten_count c l m k r he
    refine ⟨c', ?_, q1, ?_, ?_⟩
    · rw [Contest.pairs, hm]; exact q0
    · simp only [List.length_cons]; omega
    · simp only [List.length_cons]; omega

theorem contest_round {P : Contest κ → Prop} (hP : Kept P) (c : Contest κ) (xs : List κ) (coins : Nat → ℝ)
    (hc : P c) (hx : xs.Perm (c.alive.map (·.1))) :
    ∃ c', c.round xs coins = .ok c' ∧ P c' ∧ takes c' + c.alive.length / 2 ≤ takes c ∧
      c.alive.length ≤ 2 * c'.alive.length := by
  have hk := hP.keys c hc
  unfold KeysOnce at hk
  rw [List.map_append] at hk
  have hlen : xs.length = c.alive.length := by rw [hx.length_eq]; simp
  obtain ⟨c', h0, h1, h2, h3⟩ := contest_pairs hP xs c coins 0 hc (hx.nodup_iff.2 (List.nodup_append.1 hk).1)
    (fun k hk => hx.mem_iff.1 hk)
  rw [hlen] at h2 h3
  exact ⟨c', h0, h1, h2, by omega⟩

theorem contest_ends {P : Contest κ → Prop} (hP : Kept P) (shuffle : Nat → List κ → List κ)
    (coins : Nat → Nat → ℝ) (hs : ∀ i l, (shuffle i l).Perm l) : ∀ (f : Nat) (c : Contest κ) (n : Nat),
    takes c ≤ f → P c → c.alive ≠ [] → ∃ c', c.run shuffle coins f n = .ok c' := by
  intro f
  induction f with
  | zero =>
    intro c n hf _ hne
    exfalso
    cases ha : c.alive with
    | nil => exact hne ha
    | cons e r =>
      unfold takes at hf
      rw [ha] at hf
      simp at hf
  | succ f ih =>
    intro c n hf hc hne
    rw [Contest.run]
    by_cases h1 : c.alive.length > 1
    · rw [if_pos h1]
      obtain ⟨c', q0, q1, q2, q3⟩ := contest_round hP c _ (coins n) hc (hs n (c.alive.map (·.1)))
      rw [q0]
      exact ih c' (n + 1) (by omega) q1 (by intro h; rw [h, List.length_nil] at q3; omega)
    · rw [if_neg h1]
      exact ⟨c, rfl⟩

theorem contest_kept {P : Contest κ → Prop} (hP : Kept P) (shuffle : Nat → List κ → List κ)
    (coins : Nat → Nat → ℝ) (hs : ∀ i l, (shuffle i l).Perm l) : ∀ (f : Nat) (c c' : Contest κ) (n : Nat),
    P c → c.alive ≠ [] → c.run shuffle coins f n = .ok c' → P c' ∧ c'.alive.length = 1 := by
  intro f
  induction f with
  | zero => intro c c' n _ _ h; rw [Contest.run] at h; cases h
  | succ f ih =>
    intro c c' n hc hne h
    rw [Contest.run] at h
    by_cases h1 : c.alive.length > 1
    · rw [if_pos h1] at h
      obtain ⟨c1, q0, q1, q2, q3⟩ := contest_round hP c _ (coins n) hc (hs n (c.alive.map (·.1)))
      rw [q0] at h
      exact ih c1 c' (n + 1) q1 (by intro h; rw [h, List.length_nil] at q3; omega) h
    · rw [if_neg h1] at h
      cases h
      have := List.length_pos_iff.2 hne
      exact ⟨hc, by omega⟩

/-! ### The plain kind -/

/-- Keys are entered once, and the matches have a length. -/
def Plainly (c : Contest κ) : Prop := KeysOnce c ∧ 0 ≤ c.matchlength

theorem beaten_keys (c : Contest κ) (l m : List (κ × Nat)) (k : κ) (r : Nat) (hc : KeysOnce c)
    (h : c.alive = l ++ (k, r) :: m) : KeysOnce (beaten c l m k r) :=
  (((beaten_all c l m k r h).map Prod.fst).nodup_iff).2 hc

theorem beaten_once (c : Contest κ) (l m : List (κ × Nat)) (k : κ) (r : Nat) (hc : PlayersOnce c)
    (h : c.alive = l ++ (k, r) :: m) : PlayersOnce (beaten c l m k r) :=
  (((beaten_all c l m k r h).map Prod.snd).nodup_iff).2 hc

theorem plainly_kept : Kept (κ := κ) Plainly where
  keys _ h := h.1
  len _ h := h.2
  step c l m k r hc h := ⟨beaten_keys c l m k r hc.1 h, by rw [beaten_length]; exact hc.2⟩

/-! ### What is left of the players -/

/-- What has become of the players `p₀` entered in `es`. -/
structure Left (p₀ : Nat → Player) (es : List (κ × Nat)) (c : Contest κ) : Prop where
  plain : Plainly c
  once : PlayersOnce c
  all : (c.alive ++ c.dead).Perm es
  alive : ∀ e ∈ c.alive, LivesIn (p₀ e.2).lives (c.players e.2).lives
  dead : ∀ e ∈ c.dead, (c.players e.2).lives = livesOut (p₀ e.2).lives
  ratings : ∀ i, (c.players i).rating = (p₀ i).rating
  others : ∀ i, i ∉ es.map (·.2) → c.players i = p₀ i

theorem left_kept (p₀ : Nat → Player) (es : List (κ × Nat)) : Kept (Left p₀ es) where
  keys _ h := h.plain.1
  len _ h := h.plain.2
  step c l m k r hc h := by
    have hd : ∀ e, e ∈ l ++ m ∨ e ∈ c.dead → e.2 ≠ r := by
      have ho := hc.once
      unfold PlayersOnce at ho
      rw [h] at ho
      simp only [List.map_append, List.map_cons, List.append_assoc, List.cons_append] at ho
      rw [List.nodup_middle] at ho
      have h1 := (List.nodup_cons.1 ho).1
      intro e he hr
      apply h1
      rw [← hr]
      simp only [List.mem_append] at he ⊢
      rcases he with (he | he) | he
      · exact Or.inl (List.mem_map_of_mem he)
      · exact Or.inr (Or.inl (List.mem_map_of_mem he))
      · exact Or.inr (Or.inr (List.mem_map_of_mem he))
    have same : ∀ e, e ∈ l ++ m ∨ e ∈ c.dead → oneLess c.players r e.2 = c.players e.2 := by
      intro e he
      unfold oneLess
      rw [if_neg (hd e he)]
    have self : (oneLess c.players r r).lives = (c.players r).lives - 1 := by simp [oneLess]
    have was : LivesIn (p₀ r).lives (c.players r).lives := hc.alive (k, r) (by rw [h]; simp)
    have old : ∀ e ∈ l ++ m, LivesIn (p₀ e.2).lives (c.players e.2).lives := by
      intro e he
      apply hc.alive e
      rw [h]
      simp only [List.mem_append, List.mem_cons] at he ⊢
      rcases he with he | he
      · exact Or.inl he
      · exact Or.inr (Or.inr he)
    refine ⟨plainly_kept.step c l m k r hc.plain h, beaten_once c l m k r hc.once h,
      (beaten_all c l m k r h).trans hc.all, ?_, ?_, ?_, ?_⟩
    · rw [beaten_players]
      unfold beaten
      split
      · intro e he
        rw [same e (Or.inl he)]
        exact old e he
      · next hl =>
        intro e he
        simp only [List.mem_append, List.mem_cons] at he
        have : e ∈ l ++ m ∨ e = (k, r) := by
          simp only [List.mem_append]
          rcases he with he | he | he
          · exact Or.inl (Or.inl he)
          · exact Or.inr he
          · exact Or.inl (Or.inr he)
        rcases this with he | rfl
        · rw [same e (Or.inl he)]
          exact old e he
        · simp only
          rw [self]
          unfold LivesIn at was ⊢
          omega
    · rw [beaten_players]
      unfold beaten
      split
      · next hl =>
        intro e he
        simp only [List.mem_append, List.mem_singleton] at he
        rcases he with he | rfl
        · rw [same e (Or.inr he)]
          exact hc.dead e he
        · simp only
          rw [self]
          unfold LivesIn at was
          unfold livesOut
          omega
      · intro e he
        rw [same e (Or.inr he)]
        exact hc.dead e he
    · intro i
      rw [beaten_players, ← hc.ratings i]
      unfold oneLess
      split <;> rfl
    · intro i hi
      rw [beaten_players, ← hc.others i hi]
      unfold oneLess
      rw [if_neg]
      rintro rfl
      apply hi
      have : (k, i) ∈ es := hc.all.mem_iff.1 (by rw [h]; simp)
      exact List.mem_map_of_mem (f := (·.2)) this

theorem left_start (p₀ : Nat → Player) (es : List (κ × Nat)) (h1 : (es.map (·.1)).Nodup) (h2 : (es.map (·.2)).Nodup) :
    Left p₀ es (Contest.ofEntries p₀ es) where
  plain := ⟨by unfold KeysOnce Contest.ofEntries; simpa using h1, by simp [Contest.ofEntries]⟩
  once := by unfold PlayersOnce Contest.ofEntries; simpa using h2
  all := by simp [Contest.ofEntries]
  alive e _ := by
    show LivesIn (p₀ e.2).lives (p₀ e.2).lives
    unfold LivesIn
    omega
  dead e he := by simp [Contest.ofEntries] at he
  ratings _ := rfl
  others _ _ := rfl

/-! ### Looking at the players -/

theorem look_keys (c : Contest κ) : (look c).alive.map (·.1) = c.alive.map (·.1) := by
  simp [look, Function.comp_def]

theorem look_player (c : Contest κ) (k : κ) : (look c).player k = (c.entry k).map c.players := by
  unfold Tourney.player Contest.entry look
  simp only [List.find?_map, Function.comp_def]
  cases c.alive.find? fun e => decide (e.1 = k) <;> rfl

theorem look_lost (c : Contest κ) (k : κ) (hk : KeysOnce c) (ho : PlayersOnce c) (h : k ∈ c.alive.map (·.1)) :
    (look c).lost k = (c.lost k).map look := by
  obtain ⟨l, m, r, hlm, hl⟩ := contest_lost c k hk h
  have hp : Proper (look c) := by
    unfold Proper everybody look
    unfold KeysOnce at hk
    simpa [Function.comp_def] using hk
  obtain ⟨l', m', p, e1, n1, n2, n3, e2⟩ := lost_cases (look c) k hp (by rw [look_keys]; exact h)
  have hd : ∀ e, e ∈ l ++ m ∨ e ∈ c.dead → oneLess c.players r e.2 = c.players e.2 := by
    unfold PlayersOnce at ho
    rw [hlm] at ho
    simp only [List.map_append, List.map_cons, List.append_assoc, List.cons_append] at ho
    rw [List.nodup_middle] at ho
    have h1 := (List.nodup_cons.1 ho).1
    intro e he
    unfold oneLess
    rw [if_neg]
    intro hr
    apply h1
    rw [← hr]
    simp only [List.mem_append] at he ⊢
    rcases he with (he | he) | he
    · exact Or.inl (List.mem_map_of_mem he)
    · exact Or.inr (Or.inl (List.mem_map_of_mem he))
    · exact Or.inr (Or.inr (List.mem_map_of_mem he))
  have nk : k ∉ l.map (·.1) ∧ k ∉ m.map (·.1) := by
    unfold KeysOnce at hk
    rw [hlm] at hk
    simp only [List.map_append, List.map_cons, List.append_assoc, List.cons_append] at hk
    rw [List.nodup_middle] at hk
    have h1 := (List.nodup_cons.1 hk).1
    simp only [List.mem_append, not_or] at h1
    exact ⟨h1.1, h1.2.1⟩
  have split : l' = l.map (fun e => (e.1, c.players e.2)) ∧ p = c.players r ∧
      m' = m.map (fun e => (e.1, c.players e.2)) := by
    have e3 : (look c).alive = l.map (fun e => (e.1, c.players e.2)) ++ (k, c.players r) ::
        m.map (fun e => (e.1, c.players e.2)) := by
      unfold look
      rw [hlm]
      simp
    rw [e3] at e1
    have a1 : k ∉ (l.map (fun e => (e.1, c.players e.2))).map (·.1) := by
      simpa [Function.comp_def] using nk.1
    clear e2 e3 n3 hl
    revert e1 a1 n1
    generalize l.map (fun e => (e.1, c.players e.2)) = x
    generalize m.map (fun e => (e.1, c.players e.2)) = y
    intro e1 n1 a1
    induction x generalizing l' with
    | nil =>
      cases l' with
      | nil => simp at e1; exact ⟨rfl, e1.1.symm, e1.2.symm⟩
      | cons u l' => simp at e1; exact absurd (by rw [← e1.1]; simp) n1
    | cons v x ih =>
      cases l' with
      | nil => simp at e1; exact absurd (by rw [e1.1]; simp) a1
      | cons u l' =>
        simp only [List.cons_append, List.cons.injEq] at e1
        obtain ⟨q1, q2, q3⟩ := ih l' e1.2 (fun w => n1 (by simp at w ⊢; exact Or.inr w))
          (fun w => a1 (by simp at w ⊢; exact Or.inr w))
        exact ⟨by rw [q1, e1.1], q2, q3⟩
  obtain ⟨rfl, rfl, rfl⟩ := split
  rw [e2, hl]
  show _ = Except.ok (look (beaten c l m k r))
  congr 1
  have g : ∀ x : List (κ × Nat), (∀ e ∈ x, e ∈ l ++ m ∨ e ∈ c.dead) →
      x.map (fun e => (e.1, oneLess c.players r e.2)) = x.map (fun e => (e.1, c.players e.2)) := by
    intro x hx
    apply List.map_congr_left
    intro e he
    rw [hd e (hx e he)]
  have gl := g l (fun e he => Or.inl (List.mem_append_left _ he))
  have gm := g m (fun e he => Or.inl (List.mem_append_right _ he))
  have gd := g c.dead (fun e he => Or.inr he)
  have self : oneLess c.players r r = ⟨(c.players r).lives - 1, (c.players r).rating⟩ := by simp [oneLess]
  unfold beaten look
  split
  · simp only [List.map_append, List.map_cons, List.map_nil, gl, gm, gd, self]
  · simp only [List.map_append, List.map_cons, gl, gm, gd, self]

theorem look_meet (c : Contest κ) (a b : κ) (coin : ℝ) (hk : KeysOnce c) (ho : PlayersOnce c)
    (ha : a ∈ c.alive.map (·.1)) (hb : b ∈ c.alive.map (·.1)) :
    (look c).meet a b coin = (c.meet a b coin).map look := by
  obtain ⟨ra, ea, _⟩ := entry_ok c a ha
  obtain ⟨rb, eb, _⟩ := entry_ok c b hb
  unfold Tourney.meet Contest.meet
  simp only [look_player, ea, eb, bind, Except.bind, Except.map]
  have : (look c).matchlength = c.matchlength := rfl
  rw [this]
  cases chanceOfFirst (c.players ra).rating (c.players rb).rating c.matchlength with
  | error e => rfl
  | ok w =>
    simp only
    split
    · exact look_lost c b hk ho hb
    · exact look_lost c a hk ho ha

/-- Keys and players are entered once, and the matches have a length. -/
def Separate (c : Contest κ) : Prop := Plainly c ∧ PlayersOnce c

theorem separate_kept : Kept (κ := κ) Separate where
  keys _ h := h.1.1
  len _ h := h.1.2
  step c l m k r hc h := ⟨plainly_kept.step c l m k r hc.1 h, beaten_once c l m k r hc.2 h⟩

theorem look_pairs (xs : List κ) : ∀ (c : Contest κ) (coins : Nat → ℝ) (i : Nat), Separate c → xs.Nodup →
    (∀ k ∈ xs, k ∈ c.alive.map (·.1)) → (look c).pairs coins i xs = (c.pairs coins i xs).map look := by
  induction xs using List.twoStepInduction with
  | nil => intro c coins i _ _ _; rfl
  | singleton x => intro c coins i _ _ _; rfl
  | cons_cons a b xs ih _ =>
    intro c coins i hc hnd hmem
    have ha := hmem a (by simp)
    have hb := hmem b (by simp)
    obtain ⟨k, l, m, r, hk, he, hm⟩ := contest_meet separate_kept c a b (coins i) hc ha hb
    simp only [List.nodup_cons, List.mem_cons, not_or] at hnd
    rw [Tourney.pairs, Contest.pairs, look_meet c a b _ hc.1.1 hc.2 ha hb, hm]
    simp only [Except.map]
    refine ih (beaten c l m k r) coins (i + 1) (separate_kept.step c l m k r hc he) hnd.2.2 ?_
    intro k' hk'
    refine beaten_stay c l m k r he k' ?_ (hmem k' (by simp [hk']))
    rintro rfl
    rcases hk with rfl | rfl
    · exact hnd.1.2 hk'
    · exact hnd.2.1 hk'

theorem look_run (shuffle : Nat → List κ → List κ) (coins : Nat → Nat → ℝ)
    (hs : ∀ i l, (shuffle i l).Perm l) : ∀ (f : Nat) (c : Contest κ) (n : Nat), Separate c →
    (look c).run shuffle coins f n = (c.run shuffle coins f n).map look := by
  intro f
  induction f with
  | zero => intro c n _; rfl
  | succ f ih =>
    intro c n hc
    rw [Tourney.run, Contest.run]
    have hlen : (look c).alive.length = c.alive.length := by simp [look]
    rw [hlen, look_keys]
    by_cases h1 : c.alive.length > 1
    · rw [if_pos h1, if_pos h1]
      have hx := hs n (c.alive.map (·.1))
      obtain ⟨c', q0, q1, q2, q3⟩ := contest_round separate_kept c _ (coins n) hc hx
      have hk := hc.1.1
      unfold KeysOnce at hk
      rw [List.map_append] at hk
      have hr : (look c).round (shuffle n (c.alive.map (·.1))) (coins n) =
          (c.round (shuffle n (c.alive.map (·.1))) (coins n)).map look :=
        look_pairs _ c (coins n) 0 hc (hx.nodup_iff.2 (List.nodup_append.1 hk).1) (fun k hk => hx.mem_iff.1 hk)
      rw [hr, q0]
      exact ih c' (n + 1) q1
    · rw [if_neg h1, if_neg h1]
      rfl

end Bglib
