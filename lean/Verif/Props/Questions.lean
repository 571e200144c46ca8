import Verif.Lemmas.MoveFactory
/-
C95: questions about the chequers of a board are answered by the rules.
-/
namespace Bglib
open Spec

/-- A point is open if fewer than two chequers of the other player are on it, and landing hits if there is one; home is
always open; there is no other place to land on. -/
theorem C95_land (b : Board) (h : Valid b) (n : Int) :
    (0 ≤ n → n < 24 → b.isOpenToLand n = .ok (decide (cnt (theirs b) (23 - n).toNat < 2)) ∧
      b.isHittingToLand n = .ok (decide (cnt (theirs b) (23 - n).toNat = 1))) ∧
    (n = -1 → b.isOpenToLand n = .ok true ∧ b.isHittingToLand n = .ok false) ∧
    (n < -1 ∨ 24 ≤ n → b.isOpenToLand n = .error .assertion ∧ b.isHittingToLand n = .error .assertion) := by
  refine ⟨fun h0 h1 => ?_, ?_, fun h0 => ?_⟩
  · have hp : isPoint n = true := by simp [isPoint]; omega
    exact ⟨isOpen_eq h.shape hp, isHitting_eq h.shape hp⟩
  · rintro rfl; exact ⟨rfl, rfl⟩
  · have hp : isPoint n = false := by simp [isPoint]; omega
    unfold Board.isOpenToLand Board.isHittingToLand
    have hm : ¬ n = -1 := by omega
    simp [hp, hm]

/-- A chequer can be moved from a place if there is one and no other waits on the bar. -/
theorem C95_move (b : Board) (h : Valid b) (n : Int) (h0 : 0 ≤ n) (h1 : n ≤ 24) :
    b.hasChequerToMove n = .ok (decide (1 ≤ cnt (mine b) n.toNat ∧ (cnt (mine b) 24 = 0 ∨ n = 24))) := by
  rw [hasChequer_eq h.shape h0 h1]
  have := h.mine_row.2 n.toNat
  congr 1
  rw [decide_eq_decide]
  unfold movable
  constructor
  · rintro ⟨a, c⟩
    refine ⟨by omega, ?_⟩
    by_cases hz : cnt (mine b) 24 = 0
    · exact Or.inl hz
    · exact Or.inr (c hz)
  · rintro ⟨a, c⟩
    exact ⟨by omega, fun hz => by rcases c with c | c; exact absurd c hz; exact c⟩

/-- A chequer that can be moved may be borne off with a die exactly if the rules allow it.  Missing: the question for a
point without a chequer (C95_false_empty). -/
theorem C95_bearoff_partial (b : Board) (h : Valid b) (n die : Int) (hn : 0 ≤ n ∧ n ≤ 24) (hd : 1 ≤ die ∧ die ≤ 6)
    (hc : 1 ≤ cnt (mine b) n.toNat) (hb : cnt (mine b) 24 = 0 ∨ n = 24) :
    ∃ r, b.isOkToBearoffFrom n die = .ok r ∧ (r = true ↔ LegalBearoff (mine b) die n) := by
  by_cases hlt : n < die
  · refine okBearoff_eq h hn.1 hd hlt ⟨by omega, fun hz => ?_⟩
    rcases hb with hb | hb
    · exact absurd hb hz
    · exact hb
  · refine ⟨false, ?_, ?_⟩
    · unfold Board.isOkToBearoffFrom
      rw [if_neg (by omega), if_neg (by omega)]
    · simp only [Bool.false_eq_true, false_iff]
      rintro ⟨_, _, _, _, _, _, k | k⟩ <;> omega

/-- False for a point without a chequer: with all chequers on the ace point, one may be borne off from the empty second
point. -/
theorem C95_false_empty :
    ∃ b : Board, Valid b ∧ b.isOkToBearoffFrom 1 6 = .ok true ∧ cnt (mine b) 1 = 0 ∧ ¬ LegalBearoff (mine b) 6 1 := by
  refine ⟨{ position := (2 :: List.replicate 24 0, initialRow) }, ⟨Or.inl rfl, ⟨by decide, ?_⟩, ⟨by decide, ?_⟩⟩, by decide, by decide, ?_⟩
  · intro i
    by_cases hi : i < 25
    · revert i; decide
    · rw [cnt_out (by decide) (by omega)]; omega
  · intro i
    by_cases hi : i < 25
    · revert i; decide
    · rw [cnt_out (by decide) (by omega)]; omega
  · rintro ⟨_, _, _, _, k, _⟩
    exact absurd k (by decide)

private theorem findSrc_not_ace {b : Board} {die s : Int} (h : b.findSrcOfBearoffWith die = .ok (some s)) : s = die - 1 ∨ 1 ≤ s := by
  unfold Board.findSrcOfBearoffWith at h
  simp only [bind, Except.bind, pure, Except.pure] at h
  have first : ∀ l : List Int, (∀ n ∈ l, 1 ≤ n) → b.firstChequer l = .ok (some s) → 1 ≤ s := by
    intro l
    induction l with
    | nil => intro _ h; simp [Board.firstChequer] at h
    | cons n l ih =>
      intro hl h
      unfold Board.firstChequer at h
      simp only [bind, Except.bind, pure, Except.pure] at h
      split at h
      · cases h
      · split at h
        · have := Option.some.inj (Except.ok.inj h)
          have := hl n (by simp)
          omega
        · exact ih (fun k hk => hl k (by simp [hk])) h
  repeat' split at h
  all_goals first
    | cases h; done
    | (have := Option.some.inj (Except.ok.inj h); omega)
    | (right; refine first _ ?_ h; intro n hn; rw [List.mem_reverse, mem_pyRange] at hn; omega)

/-- The place to bear off from with a die is the one the rules allow, except the ace point with a larger die, which is
never found.  Missing: that place (C95_false_ace). -/
theorem C95_source_partial (b : Board) (h : Valid b) (die : Int) (hd : 1 ≤ die ∧ die ≤ 6) :
    ∃ r, b.findSrcOfBearoffWith die = .ok r ∧ ∀ s, r = some s ↔ LegalBearoff (mine b) die s ∧ (s = 0 → die = 1) := by
  obtain ⟨r, hr, h1, h2⟩ := findSrc_spec h hd
  refine ⟨r, hr, fun s => ⟨fun e => ⟨h1 s e, fun hs => ?_⟩, ?_⟩⟩
  · rw [e] at hr
    have := findSrc_not_ace hr
    omega
  · rintro ⟨k, hs⟩
    cases hrr : r with
    | none => have := h2 hrr s k; omega
    | some t =>
      have kt := h1 t hrr
      obtain ⟨_, _, a1, a2, a3, a4, a5⟩ := k
      obtain ⟨_, _, c1, c2, c3, c4, c5⟩ := kt
      congr 1
      rcases a5 with a5 | ⟨a5, a6⟩ <;> rcases c5 with c5 | ⟨c5, c6⟩
      · omega
      · have := c6 s.toNat (by omega); omega
      · have := a6 t.toNat (by omega); omega
      · rcases Int.lt_trichotomy s t with k | k | k
        · have := a6 t.toNat (by omega); omega
        · exact k.symm
        · have := c6 s.toNat (by omega); omega

/-- False on the ace point: the last chequers are not found with a two. -/
theorem C95_false_ace :
    ∃ b : Board, Valid b ∧ b.findSrcOfBearoffWith 2 = .ok none ∧ LegalBearoff (mine b) 2 0 := by
  have hz : ∀ i : Nat, 0 < i → cnt (2 :: List.replicate 24 0) i = 0 := by
    intro i hi
    by_cases hi' : i < 25
    · revert hi
      revert i
      decide
    · exact cnt_out (by decide) (by omega)
  refine ⟨{ position := (2 :: List.replicate 24 0, initialRow) }, ⟨Or.inl rfl, ⟨by decide, ?_⟩, ⟨by decide, ?_⟩⟩, by decide,
    by omega, by omega, by omega, by omega, by decide, fun i hi => hz i (by omega), Or.inr ⟨by omega, fun i hi => hz i (by omega)⟩⟩
  · intro i
    by_cases hi : i < 25
    · revert i; decide
    · rw [cnt_out (by decide) (by omega)]; omega
  · intro i
    by_cases hi : i < 25
    · revert i; decide
    · rw [cnt_out (by decide) (by omega)]; omega

/-- Non-vacuity: with a six, the chequers of the second point can be borne off when all points above are empty. -/
example : ∃ b : Board, b.findSrcOfBearoffWith 6 = .ok (some 1) ∧ b.isOkToBearoffFrom 1 6 = .ok true ∧ b.hasChequerToMove 1 = .ok true :=
  ⟨{ position := (3 :: 1 :: List.replicate 23 0, initialRow) }, by decide, by decide, by decide⟩

/-- Whether the dice were rolled, and whether they are doubles; before the roll the second question is an AssertionError. -/
theorem C95_dice (b : Board) :
    b.hasRolled = decide (b.rolled ≠ (0, 0)) ∧
    b.isDoubles = if b.rolled = (0, 0) then .error .assertion else .ok (decide (b.rolled.1 = b.rolled.2)) := by
  refine ⟨rfl, ?_⟩
  unfold Board.isDoubles Board.hasRolled
  by_cases h : b.rolled = (0, 0) <;> simp [h]

end Bglib
