import Verif.Lemmas.Stat
/-
C28: the rating formulas; C29: tournaments.  Floating point numbers are taken as real numbers.
-/
namespace Bglib
open Spec Classical

/-! ### C28 -/

/-- **C28**: the two chances add up to one, the favourite has at least an even chance, the outsider has
some chance. -/
theorem C28_chances (high low len : ℝ) (h : high ≥ low) (hp : 0 ≤ len) :
    ∃ u w, upsetChance high low len = .ok u ∧ winningChance high low len = .ok w ∧
      u + w = 1 ∧ 0 < u ∧ u ≤ 1 / 2 ∧ 1 / 2 ≤ w ∧ w < 1 := by
  have h1 := chance_pos low high len
  have h2 : chance low high len ≤ 1 / 2 := by
    rw [← chance_self low len]
    apply chance_le
    have := mul_nonneg (sub_nonneg.2 h) (Real.sqrt_nonneg len)
    simpa using this
  exact ⟨_, _, upset_eq high low len h hp, winning_eq high low len h hp, by ring, h1, h2,
    by linarith, by linarith⟩

/-- **C28**: the longer the match, the smaller the outsider's chance. -/
theorem C28_length (high low len len' : ℝ) (u u' : ℝ) (h : high > low) (hp : 0 ≤ len) (hl : len < len')
    (hu : upsetChance high low len = .ok u) (hu' : upsetChance high low len' = .ok u') : u' < u := by
  rw [upset_eq high low len (le_of_lt h) hp] at hu
  rw [upset_eq high low len' (le_of_lt h) (by linarith)] at hu'
  cases hu; cases hu'
  apply chance_lt
  exact mul_lt_mul_of_pos_left (Real.sqrt_lt_sqrt hp hl) (sub_pos.2 h)

/-- **C28**: the larger the difference in rating, the smaller the outsider's chance. -/
theorem C28_rating (high low high' low' len : ℝ) (u u' : ℝ) (h : high ≥ low) (hp : 0 < len)
    (hd : high - low < high' - low') (hu : upsetChance high low len = .ok u)
    (hu' : upsetChance high' low' len = .ok u') : u' < u := by
  rw [upset_eq high low len h (le_of_lt hp)] at hu
  rw [upset_eq high' low' len (by linarith) (le_of_lt hp)] at hu'
  cases hu; cases hu'
  apply chance_lt
  exact mul_lt_mul_of_pos_right hd (Real.sqrt_pos.2 hp)

/-- **C28**: what a player gains by winning is the length times the chance of losing; with the two gains
at stake the expected change is zero for both, and together they are the match length. -/
theorem C28_gain (a b len : ℝ) (hp : 0 ≤ len) :
    ∃ ga gb, gainOnWin a b len = .ok ga ∧ gainOnWin b a len = .ok gb ∧
      ga + gb = len ∧ chance a b len * ga - chance b a len * gb = 0 := by
  have gain : ∀ a b : ℝ, gainOnWin a b len = .ok (len * chance b a len) := by
    intro a b
    have hc := chance_compl a b len
    unfold gainOnWin
    split
    · next h => rw [upset_eq a b len h hp]; rfl
    · next h =>
      rw [upset_eq b a len (le_of_lt (not_le.1 h)) hp]
      simp only [bind, Except.bind, pure, Except.pure]
      congr 2; linarith
  refine ⟨_, _, gain a b, gain b a, ?_, by ring⟩
  have hc := chance_compl a b len
  rw [← mul_add, add_comm, hc, mul_one]

/-- **C28**: the chance used in `C28_gain` is the one the code computes, from either side. -/
theorem C28_chance (a b len : ℝ) (h : a ≥ b) (hp : 0 ≤ len) :
    winningChance a b len = .ok (chance a b len) ∧ upsetChance a b len = .ok (chance b a len) := by
  have hc := chance_compl a b len
  exact ⟨by rw [winning_eq a b len h hp]; congr 1; linarith, upset_eq a b len h hp⟩

/-- Equals have an even chance: the hypotheses can be met. -/
example : upsetChance 1000 1000 9 = .ok (1 / 2) ∧ winningChance 1000 1000 9 = .ok (1 / 2) := by
  rw [upset_eq _ _ _ (le_refl _) (by norm_num), winning_eq _ _ _ (le_refl _) (by norm_num), chance_self]
  norm_num

/-! ### C29: handicaps -/

/-- **C29**: the chances of a tournament of `rounds` rounds against average players: all won, and all but
the final won. -/
theorem C29_chance (player average len : ℝ) (rounds : ℤ) (hp : 0 ≤ len) :
    tourneyChance player average rounds len =
      .ok (chance player average len ^ rounds,
        chance player average len ^ (rounds - 1) * (1 - chance player average len)) := by
  rw [tourney_eq _ _ _ _ hp]
  have hc := chance_compl player average len
  rw [show chance average player len = 1 - chance player average len by linarith]

/-- **C29**: with handicapped prizes every player expects as much from each prize as an average player
does, and there is no division by zero. -/
theorem C29_prize (player average len winner runnerup : ℝ) (rounds : ℤ) (hp : 0 ≤ len) :
    ∃ w r w₀ r₀ pw pr, tourneyChance player average rounds len = .ok (w, r) ∧
      tourneyChance average average rounds len = .ok (w₀, r₀) ∧
      prizeHandicap player average rounds len winner runnerup = .ok (pw, pr) ∧
      0 < w ∧ 0 < r ∧ w * pw = w₀ * winner ∧ r * pr = r₀ * runnerup := by
  have c1 := chance_pos player average len
  have c2 := chance_pos average player len
  have hw : 0 < chance player average len ^ rounds := zpow_pos c1 _
  have hr : 0 < chance player average len ^ (rounds - 1) * chance average player len :=
    mul_pos (zpow_pos c1 _) c2
  refine ⟨_, _, _, _, chance average average len ^ rounds * winner / chance player average len ^ rounds,
    chance average average len ^ (rounds - 1) * chance average average len * runnerup /
      (chance player average len ^ (rounds - 1) * chance average player len),
    tourney_eq _ _ _ _ hp, tourney_eq _ _ _ _ hp, ?_, hw, hr, ?_, ?_⟩
  · unfold prizeHandicap
    rw [tourney_eq _ _ _ _ hp, tourney_eq _ _ _ _ hp]
    rfl
  · field_simp
  · field_simp

/-- **C29**: with handicapped entry fees every player pays the same for each unit of chance to win. -/
theorem C29_fee (player average len fee : ℝ) (rounds : ℤ) (hp : 0 ≤ len) :
    ∃ w r w₀ r₀ pf, tourneyChance player average rounds len = .ok (w, r) ∧
      tourneyChance average average rounds len = .ok (w₀, r₀) ∧
      entryfeeHandicap player average rounds len fee = .ok pf ∧ 0 < w ∧ pf / w = fee / w₀ := by
  have c1 := chance_pos player average len
  have hw : 0 < chance player average len ^ rounds := zpow_pos c1 _
  refine ⟨_, _, _, _, fee / chance average average len ^ rounds * chance player average len ^ rounds,
    tourney_eq _ _ _ _ hp, tourney_eq _ _ _ _ hp, ?_, hw, ?_⟩
  · unfold entryfeeHandicap
    rw [tourney_eq _ _ _ _ hp, tourney_eq _ _ _ _ hp]
    rfl
  · field_simp

/-- The docstring examples tourney.py:31-32 and 50-51. -/
example : prizeHandicap 1000 1000 4 7 100 30 = .ok (100, 30) ∧ entryfeeHandicap 1000 1000 4 7 100 = .ok 100 := by
  unfold prizeHandicap entryfeeHandicap
  rw [tourney_eq _ _ _ _ (by norm_num), chance_self]
  simp only [bind, Except.bind, pure, Except.pure]
  norm_num

/-! ### C29: tournaments -/
variable {κ : Type} [DecidableEq κ]

/-- **C29**: a round with any shuffle and any random numbers goes through; it costs exactly one life per
pair; nobody is lost, and at least half of the players stay in. -/
theorem C29_round (t : Tourney κ) (xs : List κ) (coins : Nat → ℝ) (hp : Proper t) (hl : 0 ≤ t.matchlength)
    (hx : xs.Perm (t.alive.map (·.1))) :
    ∃ t', t.round xs coins = .ok t' ∧ Proper t' ∧ (everybody t').Perm (everybody t) ∧
      lives t' = lives t - (t.alive.length / 2 : Nat) ∧
      defeatsLeft t' + t.alive.length / 2 = defeatsLeft t ∧
      t'.matchlength = t.matchlength ∧ t.alive.length ≤ 2 * t'.alive.length := by
  have hnd : (t.alive.map (·.1)).Nodup := (List.nodup_append.1 hp).1
  have hlen : xs.length = t.alive.length := by rw [hx.length_eq]; simp
  obtain ⟨t', h0, h1, h2, h3, h4, h5, h6⟩ := pairs_spec xs t coins 0 hp hl (hx.nodup_iff.2 hnd)
    (fun k hk => hx.mem_iff.1 hk)
  rw [hlen] at h3 h4 h6
  exact ⟨t', h0, h1, h2, h3, h4, h5, by omega⟩

/-- **C29**: a tournament with at least one player ends with exactly one player in, whatever the shuffles
and random numbers, after at most as many rounds as there are defeats to take. -/
theorem C29_ends (t : Tourney κ) (shuffle : Nat → List κ → List κ) (coins : Nat → Nat → ℝ) (n : Nat)
    (hs : ∀ i l, (shuffle i l).Perm l) (hp : Proper t) (hl : 0 ≤ t.matchlength) (hne : t.alive ≠ []) :
    ∃ t', t.run shuffle coins (defeatsLeft t) n = .ok t' ∧ t'.alive.length = 1 ∧ Proper t' ∧
      (everybody t').Perm (everybody t) := by
  suffices H : ∀ f (t : Tourney κ) n, defeatsLeft t ≤ f → Proper t → 0 ≤ t.matchlength → t.alive ≠ [] →
      ∃ t', t.run shuffle coins f n = .ok t' ∧ t'.alive.length = 1 ∧ Proper t' ∧
        (everybody t').Perm (everybody t) from H _ t n (Nat.le_refl _) hp hl hne
  intro f
  induction f with
  | zero =>
    intro t n hf _ _ hne
    exfalso
    cases ha : t.alive with
    | nil => exact hne ha
    | cons e r =>
      unfold defeatsLeft at hf
      rw [ha] at hf
      simp at hf
  | succ f ih =>
    intro t n hf hp hl hne
    rw [Tourney.run]
    by_cases h1 : t.alive.length > 1
    · rw [if_pos h1]
      obtain ⟨t', q0, q1, q2, q3, q4, q5, q6⟩ := C29_round t _ (coins n) hp hl (hs n (t.alive.map (·.1)))
      rw [q0]
      obtain ⟨t2, r0, r1, r2, r3⟩ := ih t' (n + 1) (by omega) q1 (by rw [q5]; exact hl) (by
        intro h; rw [h, List.length_nil] at q6; omega)
      exact ⟨t2, r0, r1, r2, r3.trans q2⟩
    · rw [if_neg h1]
      have := List.length_pos_iff.2 hne
      exact ⟨t, rfl, by omega, hp, List.Perm.refl _⟩

/-- **C29**: a new tournament is proper, so the above applies to it. -/
theorem C29_new (n : Nat) : Proper (Tourney.new n) ∧ (Tourney.new n).alive.length = n ∧
    lives (Tourney.new n) = 3 * n ∧ defeatsLeft (Tourney.new n) = 3 * n := by
  unfold Proper everybody Tourney.new lives defeatsLeft
  refine ⟨?_, by simp, ?_, ?_⟩
  · simp [Function.comp_def, List.nodup_range]
  · simp [Function.comp_def]; omega
  · simp [Function.comp_def]; omega

example : ∃ t', (Tourney.new 5).run (fun _ l => l) (fun _ _ => 0) 15 0 = .ok t' ∧ t'.alive.length = 1 := by
  have h := C29_new 5
  obtain ⟨t', h1, h2, _⟩ := C29_ends (Tourney.new 5) (fun _ l => l) (fun _ _ => 0) 0 (fun _ _ => List.Perm.refl _)
    h.1 (by simp [Tourney.new]) (by intro e; have := h.2.1; rw [e] at this; simp at this)
  rw [h.2.2.2] at h1
  exact ⟨t', h1, h2⟩

end Bglib
