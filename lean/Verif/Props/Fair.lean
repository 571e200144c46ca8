import Verif.Spec.Fair
import Verif.Lemmas.Fair
import Verif.Props.Stat
import Mathlib.Logic.Equiv.Basic
/-
C102: who wins the matches of a tournament.
-/
namespace Bglib
open Spec Classical

variable {κ : Type} [DecidableEq κ]

/-- **C102**: the match of `a` and `b` costs one of them a life: `b` if the random number is at most the
chance the ratings give to `a`, otherwise `a`.  Nobody else is touched, no rating changes, and only a loser
on their last life is out. -/
theorem C102_match (t : Tourney κ) (a b : κ) (coin : ℝ) (hp : Proper t) (hl : 0 ≤ t.matchlength)
    (ha : isIn t a) (hb : isIn t b) :
    ∃ pa pb t' k p, entrant t a = some pa ∧ entrant t b = some pb ∧ t.meet a b coin = .ok t' ∧
      (k, p) = (if coin ≤ chance pa.rating pb.rating t.matchlength then (b, pb) else (a, pa)) ∧
      (∀ k', entrant t' k' = if k' = k then some ⟨p.lives - 1, p.rating⟩ else entrant t k') ∧
      (∀ k', isIn t' k' ↔ isIn t k' ∧ (k' = k → 1 < p.lives)) := by
  obtain ⟨pa, hpa, hma⟩ := player_ok t a ha
  obtain ⟨pb, hpb, hmb⟩ := player_ok t b hb
  have ea := entrant_eq hp (List.mem_append_left _ hma)
  have eb := entrant_eq hp (List.mem_append_left _ hmb)
  rw [meet_eq t a b coin hl hpa hpb]
  by_cases h : coin ≤ chance pa.rating pb.rating t.matchlength
  · obtain ⟨t', h1, h2, h3⟩ := lost_everybody t b pb hp hmb
    exact ⟨pa, pb, t', b, pb, ea, eb, by rw [if_pos h]; exact h1, by rw [if_pos h], h2, h3⟩
  · obtain ⟨t', h1, h2, h3⟩ := lost_everybody t a pa hp hma
    exact ⟨pa, pb, t', a, pa, ea, eb, by rw [if_neg h]; exact h1, by rw [if_neg h], h2, h3⟩

/-- **C102**: so `a` beats `b` exactly for the random numbers up to the chance of `a`. -/
theorem C102_beats (t : Tourney κ) (a b : κ) (coin : ℝ) (hp : Proper t) (hl : 0 ≤ t.matchlength)
    (ha : isIn t a) (hb : isIn t b) (hab : a ≠ b) {pa pb : Player} (ea : entrant t a = some pa)
    (eb : entrant t b = some pb) :
    Beats t a b coin ↔ coin ≤ chance pa.rating pb.rating t.matchlength := by
  obtain ⟨pa', pb', t', k, p, ea', eb', hm, hk, he, _⟩ := C102_match t a b coin hp hl ha hb
  rw [ea] at ea'; rw [eb] at eb'
  have hpa := Option.some.inj ea'; have hpb := Option.some.inj eb'
  subst hpa; subst hpb
  constructor
  · rintro ⟨t2, q, q', hm2, h1, h2, hlt⟩
    rw [hm] at hm2
    have := Except.ok.inj hm2
    subst this
    by_contra hc
    rw [if_neg hc] at hk
    obtain ⟨rfl, rfl⟩ := Prod.mk.inj hk
    rw [he, if_neg (Ne.symm hab), h1] at h2
    have := Option.some.inj h2
    subst this
    omega
  · intro hc
    rw [if_pos hc] at hk
    obtain ⟨rfl, rfl⟩ := Prod.mk.inj hk
    refine ⟨t', p, ⟨p.lives - 1, p.rating⟩, hm, eb, ?_, ?_⟩
    · rw [he, if_pos rfl]
    · show p.lives - 1 < p.lives
      omega

/-- **C102**: of `n` evenly spread random numbers those with which `a` beats `b` are as many as the chance
asks for and at most one more.  With the numbers of `random.random()`, the chance of winning is that of the
ratings with an error of at most `2^-53`. -/
theorem C102_often (t : Tourney κ) (a b : κ) (n : Nat) (hn : 0 < n) (hp : Proper t) (hl : 0 ≤ t.matchlength)
    (ha : isIn t a) (hb : isIn t b) (hab : a ≠ b) {pa pb : Player} (ea : entrant t a = some pa)
    (eb : entrant t b = some pb) :
    chance pa.rating pb.rating t.matchlength * n < wins t a b n ∧
      (wins t a b n : ℝ) ≤ chance pa.rating pb.rating t.matchlength * n + 1 := by
  generalize hc : chance pa.rating pb.rating t.matchlength = c
  have hpos : (0 : ℝ) < n := by exact_mod_cast hn
  have c0 : 0 < c := by rw [← hc]; exact chance_pos _ _ _
  have c1 : c < 1 := by rw [← hc]; exact chance_lt_one _ _ _
  have hw : (wins t a b n : ℝ) = min (n : ℝ) (⌊c * n⌋₊ + 1 : ℝ) := by
    rw [← count_le (c * n) (by positivity) n]
    unfold wins
    congr 2
    apply List.filter_congr
    intro k _
    rw [decide_eq_decide, C102_beats t a b _ hp hl ha hb hab ea eb, hc, div_le_iff₀ hpos]
  rw [hw]
  have f1 := Nat.floor_le (show 0 ≤ c * n by positivity)
  have f2 := Nat.lt_floor_add_one (c * n)
  constructor
  · exact lt_min (by nlinarith) f2
  · exact (min_le_right _ _).trans (by linarith)

/-- **C102**: in a new tournament everybody has the same prospects.  Whoever is last with some luck, `f` of
them is last with the luck with places changed by `f`, which has the same random numbers. -/
theorem C102_alike (n : Nat) (f : Equiv.Perm Nat) (hf : ∀ k, k < n ↔ f k < n) (x : Luck) (hx : Luck.Fair x) (fuel k : Nat)
    (t' : Tourney Nat) (h : (Tourney.new n).run x.shuffle x.coins fuel 0 = .ok t') (hk : t'.alive.map (·.1) = [k]) :
    ∃ u', (Tourney.new n).run (Luck.reseated f x).shuffle (Luck.reseated f x).coins fuel 0 = .ok u' ∧
      u'.alive.map (·.1) = [f k] := by
  have asc : Ascending (Tourney.new n) := by
    unfold Ascending Tourney.new
    simp only [List.map_map, Function.comp_def, List.map_id']
    exact List.pairwise_lt_range
  have hr : Reseats f (Tourney.new n) (Tourney.new n) := by
    refine ⟨?_, rfl⟩
    unfold Tourney.new
    simp only [List.map_map, Function.comp_def, reEntry]
    have : ((List.range n).map f).Perm (List.range n) := by
      rw [List.perm_ext_iff_of_nodup (List.nodup_range.map f.injective) List.nodup_range]
      intro a
      rw [List.mem_map, List.mem_range]
      constructor
      · rintro ⟨b, hb, rfl⟩; exact (hf b).1 (List.mem_range.1 hb)
      · intro ha
        exact ⟨f.symm a, List.mem_range.2 ((hf _).2 (by simpa using ha)), by simp⟩
    have := this.symm.map (fun i => (i, (⟨3, 1000⟩ : Player)))
    simpa [Function.comp_def] using this
  obtain ⟨u', h1, h2⟩ := reseats_run f x hx fuel 0 _ _ t' hr (C29_new n).1 (by simp [Tourney.new]) asc asc h
  refine ⟨u', h1, ?_⟩
  have := h2.keys
  rw [hk] at this
  exact List.perm_singleton.1 this

/-- **C102**: changing places leaves the luck a luck of `random`, and changing them back gives it back (for
keys in ascending order, which are all it is asked for). -/
theorem C102_back (f : Equiv.Perm Nat) (x : Luck) (hx : Luck.Fair x) :
    Luck.Fair (Luck.reseated f x) ∧
      ∀ i l, l.Pairwise (· < ·) → (Luck.reseated f.symm (Luck.reseated f x)).shuffle i l = x.shuffle i l ∧
        (Luck.reseated f.symm (Luck.reseated f x)).coins = x.coins := by
  constructor
  · intro i l
    unfold Luck.reseated
    refine ((hx i _).map f).trans (((List.mergeSort_perm _ _).map f).trans ?_)
    simp [Function.comp_def]
  · intro i l hl
    refine ⟨?_, rfl⟩
    unfold Luck.reseated
    simp only [Equiv.symm_symm, List.map_map]
    have e : (List.map f.symm (List.mergeSort (List.map f l) fun a b => decide (a ≤ b))).mergeSort
        (fun a b => decide (a ≤ b)) = l := by
      apply sort_ascending hl
      refine ((List.mergeSort_perm _ _).map f.symm).trans ?_
      simp [Function.comp_def]
    rw [e]
    simp [Function.comp_def]

/-- Of two new players with three lives each the first beats the second with the random number 1/4 and not with 3/4. -/
example : Beats (Tourney.new 2) 0 1 (1 / 4) ∧ ¬ Beats (Tourney.new 2) 0 1 (3 / 4) := by
  have h := C29_new 2
  have e : ∀ k, k < 2 → entrant (Tourney.new 2) k = some ⟨3, 1000⟩ := by
    intro k hk
    apply entrant_eq h.1
    unfold Tourney.new
    simp; omega
  have i : ∀ k, k < 2 → isIn (Tourney.new 2) k := by
    intro k hk
    unfold isIn Tourney.new
    simp; omega
  have hl : 0 ≤ (Tourney.new 2).matchlength := by simp [Tourney.new]
  rw [C102_beats _ 0 1 _ h.1 hl (i 0 (by omega)) (i 1 (by omega)) (by omega) (e 0 (by omega)) (e 1 (by omega)),
    C102_beats _ 0 1 _ h.1 hl (i 0 (by omega)) (i 1 (by omega)) (by omega) (e 0 (by omega)) (e 1 (by omega)), chance_self]
  norm_num

/-- Tournaments do come to somebody who is last. -/
example : ∃ t' k, (Tourney.new 5).run (fun _ l => l) (fun _ _ => 0) 15 0 = .ok t' ∧ t'.alive.map (·.1) = [k] := by
  have h := C29_new 5
  obtain ⟨t', h1, h2, _⟩ := C29_ends (Tourney.new 5) (fun _ l => l) (fun _ _ => 0) 0 (fun _ _ => List.Perm.refl _)
    h.1 (by simp [Tourney.new]) (by intro e; have := h.2.1; rw [e] at this; simp at this)
  rw [h.2.2.2] at h1
  obtain ⟨e, he⟩ := List.length_eq_one_iff.1 h2
  exact ⟨t', e.1, h1, by rw [he]; rfl⟩

/-- Places can be changed: those of 0 and 1 among five. -/
example : ∀ k, k < 5 ↔ (Equiv.swap 0 1 : Equiv.Perm Nat) k < 5 := by
  intro k
  rw [Equiv.swap_apply_def]
  split
  · omega
  · split <;> omega

end Bglib
