import Verif.Spec.Knockout
import Verif.Lemmas.Stat
import Verif.Props.Stat
namespace Bglib
open Spec Classical

theorem most_mono {a : Nat} : ∀ {b}, a ≤ b → most a ≤ most b := by
  induction a using Nat.strongRecOn with
  | _ a ih =>
    intro b h
    by_cases ha : a ≤ 1
    · rw [most, if_pos ha]; omega
    · rw [most.eq_def a, most.eq_def b, if_neg ha, if_neg (by omega)]
      exact Nat.add_le_add_left (ih (a - max 1 ((a + 2) / 3 / 2)) (by omega) (by omega)) 1

section
variable {κ : Type} [DecidableEq κ]

/-- No player still in has more than three lives. -/
def Three (t : Tourney κ) : Prop := ∀ e ∈ t.alive, e.2.lives ≤ 3

theorem lost_three {t t' : Tourney κ} {k : κ} (hp : Proper t) (hk : k ∈ t.alive.map (·.1)) (h : Three t)
    (e : t.lost k = .ok t') : Three t' := by
  obtain ⟨l, r, p, hlr, hl, hr, hd, he⟩ := lost_cases t k hp hk
  rw [e] at he
  have he := Except.ok.inj he
  have hp' := h (k, p) (by rw [hlr]; simp)
  intro x hx
  rw [he] at hx
  split at hx
  · apply h
    rw [hlr]
    simp at hx ⊢
    tauto
  · simp only [List.mem_append, List.mem_cons] at hx
    rcases hx with hx | rfl | hx
    · apply h; rw [hlr]; simp [hx]
    · simp only at hp' ⊢; omega
    · apply h; rw [hlr]; simp [hx]

theorem pairs_three (xs : List κ) : ∀ (t t' : Tourney κ) (coins : Nat → ℝ) (i : Nat), Proper t →
    0 ≤ t.matchlength → xs.Nodup → (∀ k ∈ xs, k ∈ t.alive.map (·.1)) → Three t →
    t.pairs coins i xs = .ok t' → Three t' := by
  induction xs using List.twoStepInduction with
  | nil => intro t t' coins i _ _ _ _ h e; cases e; exact h
  | singleton x => intro t t' coins i _ _ _ _ h e; cases e; exact h
  | cons_cons a b xs ih _ =>
    intro t t' coins i hp hlen hnd hmem h3 e
    have ha := hmem a (by simp)
    have hb := hmem b (by simp)
    obtain ⟨k, t1, hk, hm, hl⟩ := meet_spec t a b (coins i) hp hlen ha hb
    have hkm : k ∈ t.alive.map (·.1) := by rcases hk with rfl | rfl <;> assumption
    obtain ⟨t1', hl', p1, p2, p3, p4, p5, p6, p7⟩ := lost_spec t k hp hkm
    have h31 := lost_three hp hkm h3 hl
    rw [hl] at hl'
    cases hl'
    simp only [List.nodup_cons, List.mem_cons, not_or] at hnd
    rw [Tourney.pairs, hm] at e
    refine ih t1 t' coins (i + 1) p1 (by rw [p5]; exact hlen) hnd.2.2 ?_ h31 e
    intro k' hk'
    refine p7 k' ?_ (hmem k' (by simp [hk']))
    rintro rfl
    rcases hk with rfl | rfl
    · exact hnd.1.2 hk'
    · exact hnd.2.1 hk'

/-- When all have a life to spare nobody drops out of a round. -/
theorem pairs_keep (m : Int) (hm : 1 ≤ m) (xs : List κ) : ∀ (t : Tourney κ) (coins : Nat → ℝ) (i : Nat),
    Proper t → 0 ≤ t.matchlength → xs.Nodup → (∀ k ∈ xs, k ∈ t.alive.map (·.1)) →
    (∀ e ∈ t.alive, m ≤ e.2.lives) → (∀ e ∈ t.alive, e.1 ∈ xs → m + 1 ≤ e.2.lives) →
    ∃ t', t.pairs coins i xs = .ok t' ∧ t'.alive.map (·.1) = t.alive.map (·.1) ∧
      ∀ e ∈ t'.alive, m ≤ e.2.lives := by
  induction xs using List.twoStepInduction with
  | nil => intro t coins i _ _ _ _ h _; exact ⟨t, rfl, rfl, h⟩
  | singleton x => intro t coins i _ _ _ _ h _; exact ⟨t, rfl, rfl, h⟩
  | cons_cons a b xs ih _ =>
    intro t coins i hp hlen hnd hmem h1 h2
    have ha := hmem a (by simp)
    have hb := hmem b (by simp)
    obtain ⟨k, t1, hk, hmt, hl⟩ := meet_spec t a b (coins i) hp hlen ha hb
    have hkm : k ∈ t.alive.map (·.1) := by rcases hk with rfl | rfl <;> assumption
    obtain ⟨t1', hl', p1, p2, p3, p4, p5, p6, p7⟩ := lost_spec t k hp hkm
    rw [hl] at hl'
    cases hl'
    obtain ⟨l, r, p, hlr, hl1, hr, hd, he⟩ := lost_cases t k hp hkm
    rw [hl] at he
    have he := Except.ok.inj he
    have hpk : m + 1 ≤ p.lives := h2 (k, p) (by rw [hlr]; simp) (by rcases hk with rfl | rfl <;> simp)
    rw [if_neg (by omega)] at he
    have hkeys : t1.alive.map (·.1) = t.alive.map (·.1) := by rw [he, hlr]; simp
    simp only [List.nodup_cons, List.mem_cons, not_or] at hnd
    have hkx : k ∉ xs := by
      rcases hk with rfl | rfl
      · exact hnd.1.2
      · exact hnd.2.1
    obtain ⟨t', q0, q1, q2⟩ := ih t1 coins (i + 1) p1 (by rw [p5]; exact hlen) hnd.2.2
      (fun k' hk' => by rw [hkeys]; exact hmem k' (by simp [hk']))
      (by
        intro x hx
        rw [he] at hx
        simp only [List.mem_append, List.mem_cons] at hx
        rcases hx with hx | rfl | hx
        · apply h1; rw [hlr]; simp [hx]
        · simp only; omega
        · apply h1; rw [hlr]; simp [hx])
      (by
        intro x hx hxs
        rw [he] at hx
        simp only [List.mem_append, List.mem_cons] at hx
        rcases hx with hx | rfl | hx
        · apply h2; rw [hlr]; simp [hx]; simp [hxs]
        · exact absurd hxs hkx
        · apply h2; rw [hlr]; simp [hx]; simp [hxs])
    exact ⟨t', by rw [Tourney.pairs, hmt]; exact q0, by rw [q1, hkeys], q2⟩

omit [DecidableEq κ] in
theorem defeats_three {t : Tourney κ} (h : Three t) : defeatsLeft t ≤ 3 * t.alive.length := by
  unfold defeatsLeft
  have : ∀ l : List (κ × Player), (∀ e ∈ l, e.2.lives ≤ 3) →
      (l.map (fun e => max 1 e.2.lives.toNat)).sum ≤ 3 * l.length := by
    intro l
    induction l with
    | nil => simp
    | cons a l ih =>
      intro h
      have h1 := h a (by simp)
      have h2 := ih (fun e he => h e (by simp [he]))
      simp only [List.map_cons, List.sum_cons, List.length_cons]
      omega
  exact this _ h

omit [DecidableEq κ] in
theorem alive_defeats (t : Tourney κ) : t.alive.length ≤ defeatsLeft t := by
  unfold defeatsLeft
  induction t.alive with
  | nil => simp
  | cons a l ih => simp only [List.map_cons, List.sum_cons, List.length_cons]; omega

theorem countRounds_spec (shuffle : Nat → List κ → List κ) (coins : Nat → Nat → ℝ)
    (hs : ∀ i l, (shuffle i l).Perm l) : ∀ (f : Nat) (t : Tourney κ) (c : Nat), defeatsLeft t ≤ f →
      Proper t → 0 ≤ t.matchlength → t.alive ≠ [] → Three t →
      ∃ k, countRounds shuffle coins f c t = .ok (c + k) ∧ k ≤ most (defeatsLeft t) ∧
        t.alive.length ≤ 2 ^ k := by
  intro f
  induction f with
  | zero =>
    intro t c hf _ _ hne
    have := alive_defeats t
    have := List.length_pos_iff.2 hne
    omega
  | succ f ih =>
    intro t c hf hp hl hne h3
    rw [countRounds]
    by_cases h1 : t.alive.length > 1
    · rw [if_pos h1]
      have hperm := hs c (t.alive.map (·.1))
      obtain ⟨t', q0, q1, q2, q3, q4, q5, q6⟩ := C29_round t _ (coins c) hp hl hperm
      have h3' : Three t' := pairs_three _ t t' (coins c) 0 hp hl
        (hperm.nodup_iff.2 (List.nodup_append.1 hp).1) (fun k hk => hperm.mem_iff.1 hk) h3 q0
      rw [q0]
      obtain ⟨k, r0, r1, r2⟩ := ih t' (c + 1) (by omega) q1 (by rw [q5]; exact hl) (by
        intro h; rw [h, List.length_nil] at q6; omega) h3'
      have h4 := defeats_three h3
      have h5 := alive_defeats t
      refine ⟨k + 1, ?_, ?_, ?_⟩
      · simp only [r0]; congr 1; omega
      · rw [most, if_neg (by omega)]
        have := most_mono (a := defeatsLeft t') (b := defeatsLeft t - max 1 ((defeatsLeft t + 2) / 3 / 2))
          (by omega)
        omega
      · rw [Nat.pow_succ]; omega
    · rw [if_neg h1]
      exact ⟨0, rfl, Nat.zero_le _, by simp; omega⟩

end

theorem new_three (n : Nat) : Three (Tourney.new n) := by
  intro e he
  simp only [Tourney.new, List.mem_map] at he
  obtain ⟨i, _, rfl⟩ := he
  simp

theorem round_keep {κ : Type} [DecidableEq κ] (m : Int) (hm : 1 ≤ m) (t : Tourney κ) (xs : List κ)
    (coins : Nat → ℝ) (hp : Proper t) (hl : 0 ≤ t.matchlength) (hx : xs.Perm (t.alive.map (·.1)))
    (h : ∀ e ∈ t.alive, m + 1 ≤ e.2.lives) :
    ∃ t', t.round xs coins = .ok t' ∧ t'.alive.map (·.1) = t.alive.map (·.1) ∧
      ∀ e ∈ t'.alive, m ≤ e.2.lives :=
  pairs_keep m hm xs t coins 0 hp hl (hx.nodup_iff.2 (List.nodup_append.1 hp).1)
    (fun k hk => hx.mem_iff.1 hk) (fun e he => by have := h e he; omega) (fun e he _ => h e he)

theorem rounds_possible (x : Luck) (hx : Luck.Fair x) (n : Nat) (hn : 2 ≤ n) :
    ∃ c, countRounds x.shuffle x.coins (3 * n) 0 (Tourney.new n) = .ok c ∧ Possible n c := by
  obtain ⟨hp, ha, _, hdl⟩ := C29_new n
  have hl : 0 ≤ (Tourney.new n).matchlength := by simp [Tourney.new]
  have h3 := new_three n
  have hne : (Tourney.new n).alive ≠ [] := by
    intro e; rw [e, List.length_nil] at ha; omega
  obtain ⟨c, e0, e1, _⟩ := countRounds_spec x.shuffle x.coins hx (3 * n) _ 0 (by omega) hp hl hne h3
  rw [Nat.zero_add] at e0
  rw [hdl] at e1
  refine ⟨c, e0, ?_⟩
  -- the first round
  have l3 : ∀ e ∈ (Tourney.new n).alive, (2 : Int) + 1 ≤ e.2.lives := by
    intro e he
    simp only [Tourney.new, List.mem_map] at he
    obtain ⟨i, _, rfl⟩ := he
    simp
  have px := hx 0 ((Tourney.new n).alive.map (·.1))
  obtain ⟨t1, a0, a1, a2, a3, a4, a5, a6⟩ := C29_round _ _ (x.coins 0) hp hl px
  obtain ⟨_, b0, b1, b2⟩ := round_keep 2 (by omega) _ _ (x.coins 0) hp hl px l3
  rw [a0] at b0
  cases b0
  have n1 : t1.alive.length = n := by
    have := congrArg List.length b1
    simpa [ha] using this
  have th1 : Three t1 := pairs_three _ _ t1 (x.coins 0) 0 hp hl
    (px.nodup_iff.2 (List.nodup_append.1 hp).1) (fun k hk => px.mem_iff.1 hk) h3 a0
  -- the second round
  have hl1 : 0 ≤ t1.matchlength := by rw [a5]; exact hl
  have px1 := hx 1 (t1.alive.map (·.1))
  obtain ⟨t2, c0, c1, c2, c3, c4, c5, c6⟩ := C29_round _ _ (x.coins 1) a1 hl1 px1
  obtain ⟨_, d0, d1, d2⟩ := round_keep 1 (by omega) _ _ (x.coins 1) a1 hl1 px1 (fun e he => b2 e he)
  rw [c0] at d0
  cases d0
  have n2 : t2.alive.length = n := by
    have := congrArg List.length d1
    simpa [n1] using this
  have th2 : Three t2 := pairs_three _ _ t2 (x.coins 1) 0 a1 hl1
    (px1.nodup_iff.2 (List.nodup_append.1 a1).1) (fun k hk => px1.mem_iff.1 hk) th1 c0
  obtain ⟨k, e2, _, e4⟩ := countRounds_spec x.shuffle x.coins hx (3 * n - 2) t2 2 (by omega) c1
    (by rw [c5]; exact hl1) (by intro e; rw [e, List.length_nil] at n2; omega) th2
  have hf : 3 * n = 3 * n - 2 + 1 + 1 := by omega
  rw [hf, countRounds, if_pos (by omega), a0] at e0
  simp only at e0
  rw [countRounds, if_pos (by omega)] at e0
  simp only [Nat.zero_add, c0] at e0
  rw [e2] at e0
  cases e0
  exact ⟨by omega, by rw [show 2 + k - 2 = k by omega]; omega, e1⟩

/-! ### the counts -/

theorem tally_keys (c : Nat) : ∀ d : List (Nat × Nat), ∀ k ∈ (tally c d).map (·.1), k = c ∨ k ∈ d.map (·.1) := by
  intro d
  induction d with
  | nil => simp [tally]
  | cons a d ih =>
    obtain ⟨c', k'⟩ := a
    intro k hk
    rw [tally] at hk
    split at hk
    · right; simpa using hk
    · simp only [List.map_cons, List.mem_cons] at hk ⊢
      rcases hk with h | h
      · exact .inr (.inl h)
      · rcases ih k h with h | h
        · exact .inl h
        · exact .inr (.inr h)

theorem tally_nodup (c : Nat) : ∀ d : List (Nat × Nat), (d.map (·.1)).Nodup → ((tally c d).map (·.1)).Nodup := by
  intro d
  induction d with
  | nil => simp [tally]
  | cons a d ih =>
    obtain ⟨c', k'⟩ := a
    intro h
    rw [tally]
    split
    · simpa using h
    · next hne =>
      simp only [List.map_cons, List.nodup_cons] at h ⊢
      refine ⟨fun hm => ?_, ih h.2⟩
      rcases tally_keys c d c' hm with h1 | h1
      · exact hne h1
      · exact h.1 h1

theorem times_tally (c x : Nat) : ∀ d : List (Nat × Nat),
    times (tally c d) x = times d x + if c = x then 1 else 0 := by
  intro d
  induction d with
  | nil =>
    unfold times
    by_cases h : c = x <;> simp [tally, h]
  | cons a d ih =>
    obtain ⟨c', k'⟩ := a
    unfold times at ih ⊢
    rw [tally]
    by_cases h1 : c' = c
    · subst h1
      rw [if_pos rfl]
      by_cases h2 : c' = x <;> simp [h2]; omega
    · rw [if_neg h1]
      by_cases h2 : c' = x
      · simp only [List.filter_cons, h2, decide_true, if_true, List.map_cons, List.sum_cons]
        rw [ih]; omega
      · simp only [List.filter_cons, h2, decide_false, Bool.false_eq_true, if_false]
        exact ih

theorem sum_tally (c : Nat) : ∀ d : List (Nat × Nat), ((tally c d).map (·.2)).sum = (d.map (·.2)).sum + 1 := by
  intro d
  induction d with
  | nil => simp [tally]
  | cons a d ih =>
    obtain ⟨c', k'⟩ := a
    rw [tally]
    split
    · simp; omega
    · simp only [List.map_cons, List.sum_cons, ih]; omega

theorem weight_tally (c : Nat) : ∀ d : List (Nat × Nat), counted (tally c d) = counted d + c := by
  intro d
  unfold counted
  induction d with
  | nil => simp [tally]
  | cons a d ih =>
    obtain ⟨c', k'⟩ := a
    rw [tally]
    split
    · next h => subst h; simp only [List.map_cons, List.sum_cons, Nat.mul_add, Nat.mul_one]; omega
    · simp only [List.map_cons, List.sum_cons, ih]; omega

theorem experiments_spec (n : Nat) (hn : 2 ≤ n) (luck : List Luck) : ∀ (d : List (Nat × Nat)),
    (∀ x ∈ luck, Luck.Fair x) → (d.map (·.1)).Nodup → (∀ c ∈ d.map (·.1), Possible n c) →
    ∃ d', experiments (3 * n) n luck (counted d) d = .ok (counted d', d') ∧
      (d'.map (·.1)).Nodup ∧ (∀ c ∈ d'.map (·.1), Possible n c) ∧
      (d'.map (·.2)).sum = (d.map (·.2)).sum + luck.length ∧
      ∀ c, times d' c = times d c +
        (luck.filter fun x => decide (countRounds x.shuffle x.coins (3 * n) 0 (Tourney.new n) = .ok c)).length := by
  induction luck with
  | nil => intro d _ h1 h2; exact ⟨d, rfl, h1, h2, by simp, by simp⟩
  | cons x luck ih =>
    intro d hf h1 h2
    obtain ⟨c, e, hc⟩ := rounds_possible x (hf x (by simp)) n hn
    obtain ⟨d', g0, g1, g2, g3, g4⟩ := ih (tally c d) (fun y hy => hf y (by simp [hy])) (tally_nodup c d h1) (by
      intro c' hc'
      rcases tally_keys c d c' hc' with rfl | h
      · exact hc
      · exact h2 c' h)
    refine ⟨d', ?_, g1, g2, ?_, ?_⟩
    · rw [experiments, e]
      simp only
      rw [← g0, weight_tally]
      push_cast
      rfl
    · rw [g3, sum_tally, List.length_cons]; omega
    · intro y
      rw [g4 y, times_tally]
      by_cases h : c = y
      · subst h
        simp [e]; omega
      · have : ¬ countRounds x.shuffle x.coins (3 * n) 0 (Tourney.new n) = .ok y := by
          rw [e]; intro h'; exact h (Except.ok.inj h')
        simp [this, h]

end Bglib
