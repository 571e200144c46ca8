import Verif.Spec.Stat
import Mathlib.Tactic.Ring
import Mathlib.Tactic.FieldSimp
import Mathlib.Tactic.Linarith
import Mathlib.Tactic.Positivity
namespace Bglib
open Spec Classical

theorem pow10_pos (x : ℝ) : 0 < (10 : ℝ) ^ x := Real.rpow_pos_of_pos (by norm_num) x

theorem upset_eq (h l len : ℝ) (hl : h ≥ l) (hp : 0 ≤ len) : upsetChance h l len = .ok (chance l h len) := by
  unfold upsetChance chance
  rw [if_pos hl, if_neg (not_lt.2 hp), add_comm]

theorem winning_eq (h l len : ℝ) (hl : h ≥ l) (hp : 0 ≤ len) :
    winningChance h l len = .ok (1 - chance l h len) := by
  unfold winningChance
  rw [upset_eq h l len hl hp]; rfl

theorem chance_pos (a b len : ℝ) : 0 < chance a b len := by
  unfold chance
  have := pow10_pos ((b - a) * Real.sqrt len / 2000)
  positivity

theorem chance_compl (a b len : ℝ) : chance a b len + chance b a len = 1 := by
  unfold chance
  have e : (a - b) * Real.sqrt len / 2000 = -((b - a) * Real.sqrt len / 2000) := by ring
  rw [e, Real.rpow_neg (by norm_num)]
  have := pow10_pos ((b - a) * Real.sqrt len / 2000)
  generalize (10 : ℝ) ^ ((b - a) * Real.sqrt len / 2000) = x at *
  field_simp
  ring

theorem chance_lt_one (a b len : ℝ) : chance a b len < 1 := by
  have := chance_compl a b len
  have := chance_pos b a len
  linarith

theorem chance_le (a b len a' b' len' : ℝ)
    (h : (b' - a') * Real.sqrt len' ≤ (b - a) * Real.sqrt len) : chance a b len ≤ chance a' b' len' := by
  unfold chance
  have h1 := pow10_pos ((b' - a') * Real.sqrt len' / 2000)
  apply one_div_le_one_div_of_le (by linarith)
  have := Real.rpow_le_rpow_of_exponent_le (x := (10 : ℝ)) (by norm_num)
    (show (b' - a') * Real.sqrt len' / 2000 ≤ (b - a) * Real.sqrt len / 2000 by linarith)
  linarith

theorem chance_lt (a b len a' b' len' : ℝ)
    (h : (b' - a') * Real.sqrt len' < (b - a) * Real.sqrt len) : chance a b len < chance a' b' len' := by
  unfold chance
  have h1 := pow10_pos ((b' - a') * Real.sqrt len' / 2000)
  apply one_div_lt_one_div_of_lt (by linarith)
  have := Real.rpow_lt_rpow_of_exponent_lt (x := (10 : ℝ)) (by norm_num)
    (show (b' - a') * Real.sqrt len' / 2000 < (b - a) * Real.sqrt len / 2000 by linarith)
  linarith

theorem chance_self (a len : ℝ) : chance a a len = 1 / 2 := by
  unfold chance; simp; norm_num

theorem tourney_eq (p a len : ℝ) (n : ℤ) (hp : 0 ≤ len) :
    tourneyChance p a n len = .ok (chance p a len ^ n, chance p a len ^ (n - 1) * chance a p len) := by
  unfold tourneyChance
  split
  · next h =>
    rw [upset_eq p a len h hp]
    have : 1 - chance a p len = chance p a len := by have := chance_compl p a len; linarith
    simp only [bind, Except.bind, pure, Except.pure, this]
  · next h =>
    rw [upset_eq a p len (le_of_lt (not_le.1 h)) hp]
    have : 1 - chance p a len = chance a p len := by have := chance_compl p a len; linarith
    simp only [bind, Except.bind, pure, Except.pure, this]

/-! ### Tournaments -/
variable {κ : Type} [DecidableEq κ]

theorem player_ok (t : Tourney κ) (k : κ) (h : k ∈ t.alive.map (·.1)) :
    ∃ p, t.player k = .ok p ∧ (k, p) ∈ t.alive := by
  unfold Tourney.player
  cases hf : t.alive.find? (fun e => decide (e.1 = k)) with
  | none =>
    rw [List.find?_eq_none] at hf
    obtain ⟨e, he, rfl⟩ := List.mem_map.1 h
    exact absurd (hf e he) (by simp)
  | some e =>
    have h1 := List.mem_of_find?_eq_some hf
    have h2 := List.find?_some hf
    simp only [decide_eq_true_eq] at h2
    exact ⟨e.2, rfl, by rw [← h2]; exact h1⟩

/-- The result of `k` losing, for proper tournaments, spelled out around the place of `k`. -/
theorem lost_cases (t : Tourney κ) (k : κ) (hp : Proper t) (h : k ∈ t.alive.map (·.1)) :
    ∃ l r p, t.alive = l ++ (k, p) :: r ∧ k ∉ l.map (·.1) ∧ k ∉ r.map (·.1) ∧ k ∉ t.dead.map (·.1) ∧
      t.lost k = .ok (if p.lives ≤ 1 then ⟨l ++ r, t.dead ++ [(k, ⟨p.lives - 1, p.rating⟩)], t.matchlength⟩
        else ⟨l ++ (k, ⟨p.lives - 1, p.rating⟩) :: r, t.dead, t.matchlength⟩) := by
  obtain ⟨p, hpl, hmem⟩ := player_ok t k h
  obtain ⟨l, r, hlr⟩ := List.append_of_mem hmem
  have hn := hp
  unfold Proper everybody at hn
  rw [hlr] at hn
  simp only [List.map_append, List.map_cons, List.append_assoc, List.cons_append] at hn
  rw [List.nodup_middle] at hn
  obtain ⟨hn1, _⟩ := List.nodup_cons.1 hn
  simp only [List.mem_append, not_or] at hn1
  obtain ⟨hl, hr, hd⟩ := hn1
  have keep : ∀ m : List (κ × Player), k ∉ m.map (·.1) → m.filter (fun e => decide (e.1 ≠ k)) = m := by
    intro m hm
    rw [List.filter_eq_self]
    intro e he
    simp only [ne_eq, decide_not, Bool.not_eq_eq_eq_not, Bool.not_true, decide_eq_false_iff_not]
    rintro rfl
    exact hm (List.mem_map_of_mem he)
  have keep2 : ∀ (m : List (κ × Player)) (q : κ × Player), k ∉ m.map (·.1) →
      m.map (fun e => if e.1 = k then q else e) = m := by
    intro m q hm
    conv => rhs; rw [← List.map_id m]
    apply List.map_congr_left
    intro e he
    rw [if_neg]
    · rfl
    · rintro rfl
      exact hm (List.mem_map_of_mem he)
  refine ⟨l, r, p, hlr, hl, hr, hd, ?_⟩
  unfold Tourney.lost
  simp only [hpl, bind, Except.bind, pure, Except.pure]
  by_cases hle : p.lives ≤ 1
  · rw [if_pos hle, if_pos (by omega), hlr]
    simp only [List.filter_append, List.filter_cons]
    rw [keep l hl, keep r hr, keep _ hd]
    simp
  · rw [if_neg hle, if_neg (by omega), hlr]
    simp only [List.map_append, List.map_cons, if_true]
    rw [keep2 l _ hl, keep2 r _ hr]

theorem lost_spec (t : Tourney κ) (k : κ) (hp : Proper t) (h : k ∈ t.alive.map (·.1)) :
    ∃ t', t.lost k = .ok t' ∧ Proper t' ∧ (everybody t').Perm (everybody t) ∧ lives t' = lives t - 1 ∧
      defeatsLeft t' + 1 = defeatsLeft t ∧ t'.matchlength = t.matchlength ∧
      t.alive.length ≤ t'.alive.length + 1 ∧
      ∀ k', k' ≠ k → k' ∈ t.alive.map (·.1) → k' ∈ t'.alive.map (·.1) := by
  obtain ⟨l, r, p, hlr, hl, hr, hd, he⟩ := lost_cases t k hp h
  refine ⟨_, he, ?_⟩
  have key : ∀ t' : Tourney κ, (everybody t').Perm (everybody t) → Proper t' := fun t' hperm =>
    hperm.nodup_iff.2 hp
  split
  · next hle =>
    have hperm : (everybody (⟨l ++ r, t.dead ++ [(k, ⟨p.lives - 1, p.rating⟩)], t.matchlength⟩ : Tourney κ)).Perm
        (everybody t) := by
      unfold everybody
      rw [hlr]
      simp only [List.map_append, List.map_cons, List.map_nil, List.append_assoc, List.cons_append]
      refine List.Perm.append_left _ ?_
      rw [← List.append_assoc]
      exact List.perm_append_singleton k _
    refine ⟨key _ hperm, hperm, ?_, ?_, rfl, ?_, ?_⟩
    · unfold lives; rw [hlr]; simp; omega
    · unfold defeatsLeft; rw [hlr]; simp; omega
    · rw [hlr]; simp; omega
    · intro k' hne hk'
      rw [hlr] at hk'
      simp at hk' ⊢
      grind
  · next hle =>
    have hperm : (everybody (⟨l ++ (k, ⟨p.lives - 1, p.rating⟩) :: r, t.dead, t.matchlength⟩ : Tourney κ)).Perm
        (everybody t) := by
      unfold everybody
      rw [hlr]; simp
    refine ⟨key _ hperm, hperm, ?_, ?_, rfl, ?_, ?_⟩
    · unfold lives; rw [hlr]; simp; omega
    · unfold defeatsLeft; rw [hlr]; simp; omega
    · rw [hlr]; simp
    · intro k' hne hk'
      rw [hlr] at hk'
      simp at hk' ⊢
      grind

theorem chanceOfFirst_eq (a b len : ℝ) (h : 0 ≤ len) : chanceOfFirst a b len = .ok (chance a b len) := by
  unfold chanceOfFirst
  have hc := chance_compl a b len
  split
  · next hab => rw [winning_eq a b len hab h]; congr 1; linarith
  · next hab =>
    rw [winning_eq b a len (le_of_lt (not_le.1 hab)) h]
    simp only [bind, Except.bind, pure, Except.pure]
    congr 1; linarith

theorem meet_spec (t : Tourney κ) (a b : κ) (coin : ℝ) (hp : Proper t) (hlen : 0 ≤ t.matchlength)
    (ha : a ∈ t.alive.map (·.1)) (hb : b ∈ t.alive.map (·.1)) :
    ∃ k t', (k = a ∨ k = b) ∧ t.meet a b coin = .ok t' ∧ t.lost k = .ok t' := by
  obtain ⟨pa, hpa, _⟩ := player_ok t a ha
  obtain ⟨pb, hpb, _⟩ := player_ok t b hb
  unfold Tourney.meet
  simp only [hpa, hpb, chanceOfFirst_eq _ _ _ hlen, bind, Except.bind]
  split
  · obtain ⟨t', h, _⟩ := lost_spec t b hp hb
    exact ⟨b, t', Or.inr rfl, h, h⟩
  · obtain ⟨t', h, _⟩ := lost_spec t a hp ha
    exact ⟨a, t', Or.inl rfl, h, h⟩

theorem pairs_spec (xs : List κ) : ∀ (t : Tourney κ) (coins : Nat → ℝ) (i : Nat), Proper t →
    0 ≤ t.matchlength → xs.Nodup → (∀ k ∈ xs, k ∈ t.alive.map (·.1)) →
    ∃ t', t.pairs coins i xs = .ok t' ∧ Proper t' ∧ (everybody t').Perm (everybody t) ∧
      lives t' = lives t - (xs.length / 2 : Nat) ∧ defeatsLeft t' + xs.length / 2 = defeatsLeft t ∧
      t'.matchlength = t.matchlength ∧ t.alive.length ≤ t'.alive.length + xs.length / 2 := by
  induction xs using List.twoStepInduction with
  | nil => intro t coins i hp hlen _ _; exact ⟨t, rfl, hp, List.Perm.refl _, by simp, by simp, rfl, by simp⟩
  | singleton x => intro t coins i hp hlen _ _; exact ⟨t, rfl, hp, List.Perm.refl _, by simp, by simp, rfl, by simp⟩
  | cons_cons a b xs ih _ =>
    intro t coins i hp hlen hnd hmem
    have ha := hmem a (by simp)
    have hb := hmem b (by simp)
    obtain ⟨k, t1, hk, hm, hl⟩ := meet_spec t a b (coins i) hp hlen ha hb
    obtain ⟨t1', hl', p1, p2, p3, p4, p5, p6, p7⟩ := lost_spec t k hp (by rcases hk with rfl | rfl <;> assumption)
    rw [hl] at hl'
    cases hl'
    simp only [List.nodup_cons, List.mem_cons, not_or] at hnd
    obtain ⟨t', q0, q1, q2, q3, q4, q5, q6⟩ := ih t1 coins (i + 1) p1 (by rw [p5]; exact hlen) hnd.2.2 (by
      intro k' hk'
      refine p7 k' ?_ (hmem k' (by simp [hk']))
      rintro rfl
      rcases hk with rfl | rfl
      · exact hnd.1.2 hk'
      · exact hnd.2.1 hk')
    refine ⟨t', ?_, q1, q2.trans p2, ?_, ?_, by rw [q5, p5], ?_⟩
    · rw [Tourney.pairs, hm]; exact q0
    · rw [q3, p3]; simp only [List.length_cons]; omega
    · simp only [List.length_cons]; omega
    · simp only [List.length_cons]; omega

end Bglib
