import Verif.Spec.Fair
import Verif.Lemmas.Stat
import Mathlib.Data.List.Perm.Basic
import Mathlib.Data.List.Nodup
import Mathlib.Algebra.Order.Floor.Ring
import Mathlib.Data.Rat.Floor
import Mathlib.Algebra.Order.Archimedean.Real.Basic
namespace Bglib
open Spec Classical

variable {κ : Type} [DecidableEq κ]

/-! ### The match -/

theorem player_mem {t : Tourney κ} (hp : (t.alive.map (·.1)).Nodup) {k : κ} {p : Player} (h : (k, p) ∈ t.alive) :
    t.player k = .ok p := by
  obtain ⟨q, hq, hm⟩ := player_ok t k (List.mem_map_of_mem h)
  have : (k, q) = (k, p) := List.inj_on_of_nodup_map hp hm h rfl
  rw [hq, (Prod.mk.inj this).2]

theorem player_mem_of {t : Tourney κ} {k : κ} {p : Player} (h : t.player k = .ok p) : (k, p) ∈ t.alive := by
  unfold Tourney.player at h
  cases hf : t.alive.find? (fun e => decide (e.1 = k)) with
  | none => rw [hf] at h; simp at h
  | some e =>
    rw [hf] at h
    have h1 := List.mem_of_find?_eq_some hf
    have h2 := List.find?_some hf
    simp only [decide_eq_true_eq] at h2
    have h3 := Except.ok.inj h
    subst h2; subst h3; exact h1

theorem find_eq {l : List (κ × Player)} (h : (l.map (·.1)).Nodup) {k : κ} {p : Player} (hm : (k, p) ∈ l) :
    l.find? (fun e => decide (e.1 = k)) = some (k, p) := by
  cases hf : l.find? (fun e => decide (e.1 = k)) with
  | none =>
    rw [List.find?_eq_none] at hf
    exact absurd (hf _ hm) (by simp)
  | some e =>
    have h1 := List.mem_of_find?_eq_some hf
    have h2 := List.find?_some hf
    simp only [decide_eq_true_eq] at h2
    rw [List.inj_on_of_nodup_map h h1 hm h2]

theorem entrant_eq {t : Tourney κ} (hp : Proper t) {k : κ} {p : Player} (h : (k, p) ∈ t.alive ++ t.dead) :
    entrant t k = some p := by
  unfold entrant
  rw [find_eq (by rw [List.map_append]; exact hp) h]; rfl

theorem entrant_none {t : Tourney κ} {k : κ} (h : k ∉ everybody t) : entrant t k = none := by
  unfold entrant
  rw [Option.map_eq_none_iff, List.find?_eq_none]
  intro e he
  simp only [decide_eq_true_eq]
  rintro rfl
  apply h
  unfold everybody
  rw [← List.map_append]
  exact List.mem_map_of_mem he

theorem meet_eq (t : Tourney κ) (a b : κ) (coin : ℝ) (hlen : 0 ≤ t.matchlength) {pa pb : Player}
    (ha : t.player a = .ok pa) (hb : t.player b = .ok pb) :
    t.meet a b coin = t.lost (if coin ≤ chance pa.rating pb.rating t.matchlength then b else a) := by
  unfold Tourney.meet
  simp only [ha, hb, chanceOfFirst_eq _ _ _ hlen, bind, Except.bind]
  split <;> rfl

/-- What losing does to everybody. -/
theorem lost_everybody (t : Tourney κ) (k : κ) (p : Player) (hp : Proper t) (h : (k, p) ∈ t.alive) :
    ∃ t', t.lost k = .ok t' ∧ (∀ k', entrant t' k' = if k' = k then some ⟨p.lives - 1, p.rating⟩ else entrant t k') ∧
      (∀ k', isIn t' k' ↔ isIn t k' ∧ (k' = k → 1 < p.lives)) := by
  have hk : k ∈ t.alive.map (·.1) := List.mem_map_of_mem h
  obtain ⟨l, r, q, hlr, hl, hr, hd, he⟩ := lost_cases t k hp hk
  obtain ⟨t', ht', hp', hperm, _⟩ := lost_spec t k hp hk
  have hq : q = p := by
    have h1 : (k, q) ∈ t.alive := by rw [hlr]; simp
    have := List.inj_on_of_nodup_map (List.nodup_append.1 hp).1 h1 h rfl
    exact (Prod.mk.inj this).2
  subst hq
  refine ⟨t', ht', ?_, ?_⟩
  · intro k'
    by_cases hin : k' ∈ everybody t
    · have hin' := hperm.mem_iff.2 hin
      split
      · next e =>
        subst e
        apply entrant_eq hp'
        rw [he] at ht'
        rw [← Except.ok.inj ht']
        split <;> simp
      · next e =>
        have : ∃ x, (k', x) ∈ t.alive ++ t.dead := by
          unfold everybody at hin
          rw [← List.map_append] at hin
          obtain ⟨⟨_, x⟩, hx, rfl⟩ := List.mem_map.1 hin
          exact ⟨x, hx⟩
        obtain ⟨x, hx⟩ := this
        rw [entrant_eq hp hx]
        apply entrant_eq hp'
        rw [he] at ht'
        rw [← Except.ok.inj ht']
        rw [hlr] at hx
        split <;> (simp at hx ⊢; tauto)
    · rw [entrant_none hin, entrant_none (fun h => hin (hperm.mem_iff.1 h)), if_neg]
      rintro rfl
      apply hin
      unfold everybody
      exact List.mem_append_left _ hk
  · intro k'
    rw [he] at ht'
    rw [← Except.ok.inj ht']
    unfold isIn
    rw [hlr]
    by_cases e : k' = k
    · subst e
      split
      · next hle =>
        constructor
        · intro hm
          simp only [List.map_append, List.mem_append] at hm
          rcases hm with hm | hm
          · exact absurd hm hl
          · exact absurd hm hr
        · rintro ⟨_, hlt⟩
          have := hlt rfl
          omega
      · next hle => simp; omega
    · split <;> simp [e]

/-! ### How many of evenly spread numbers are small -/

theorem count_le (p : ℝ) (h0 : 0 ≤ p) (m : Nat) :
    (((List.range m).filter fun (k : Nat) => decide ((k : ℝ) ≤ p)).length : ℝ) = min (m : ℝ) (⌊p⌋₊ + 1 : ℝ) := by
  induction m with
  | zero => simp; positivity
  | succ m ih =>
    rw [List.range_succ, List.filter_append, List.length_append]
    push_cast
    rw [ih]
    by_cases hm : (m : ℝ) ≤ p
    · have h1 : m ≤ ⌊p⌋₊ := Nat.le_floor hm
      have h2 : (m : ℝ) ≤ (⌊p⌋₊ : ℝ) := by exact_mod_cast h1
      rw [List.filter_cons_of_pos (by simpa using hm)]
      simp only [List.filter_nil, List.length_singleton, Nat.cast_one]
      rw [min_eq_left (by linarith), min_eq_left (by linarith)]
    · have h1 : ⌊p⌋₊ < m := (Nat.floor_lt h0).2 (not_le.1 hm)
      have h2 : (⌊p⌋₊ : ℝ) + 1 ≤ (m : ℝ) := by exact_mod_cast h1
      rw [List.filter_cons_of_neg (by simpa using hm)]
      simp only [List.filter_nil, List.length_nil, Nat.cast_zero, add_zero]
      rw [min_eq_right h2, min_eq_right (by linarith)]

/-! ### Changing places -/

/-- The entry of another player. -/
def reEntry (f : κ → κ) (e : κ × Player) : κ × Player := (f e.1, e.2)

/-- The same tournament but for places and the order of the entries (and who is out). -/
def Reseats (f : κ → κ) (t u : Tourney κ) : Prop :=
  u.alive.Perm (t.alive.map (reEntry f)) ∧ u.matchlength = t.matchlength

omit [DecidableEq κ] in
theorem keys_reEntry (f : κ → κ) (l : List (κ × Player)) : (l.map (reEntry f)).map (·.1) = (l.map (·.1)).map f := by
  simp [reEntry, Function.comp_def]

omit [DecidableEq κ] in
theorem Reseats.keys {f : κ → κ} {t u : Tourney κ} (h : Reseats f t u) :
    (u.alive.map (·.1)).Perm ((t.alive.map (·.1)).map f) := by
  rw [← keys_reEntry]; exact h.1.map _

omit [DecidableEq κ] in
theorem Reseats.nodup {f : κ → κ} (hf : f.Injective) {t u : Tourney κ} (h : Reseats f t u)
    (hn : (t.alive.map (·.1)).Nodup) : (u.alive.map (·.1)).Nodup :=
  h.keys.nodup_iff.2 (hn.map hf)

theorem reseats_lost {f : κ → κ} (hf : f.Injective) {t u t' : Tourney κ} {k : κ} (h : Reseats f t u)
    (hn : (t.alive.map (·.1)).Nodup) (ht : t.lost k = .ok t') :
    ∃ u', u.lost (f k) = .ok u' ∧ Reseats f t' u' := by
  unfold Tourney.lost at ht
  cases hp : t.player k with
  | error e => simp [hp, bind, Except.bind] at ht
  | ok p =>
    have hm := player_mem_of hp
    have hu : u.player (f k) = .ok p := by
      apply player_mem (h.nodup hf hn)
      rw [h.1.mem_iff, List.mem_map]
      exact ⟨_, hm, rfl⟩
    simp only [hp, bind, Except.bind, pure, Except.pure] at ht
    unfold Tourney.lost
    simp only [hu, bind, Except.bind, pure, Except.pure]
    split at ht
    · next hle =>
      rw [if_pos hle]
      refine ⟨_, rfl, ?_⟩
      rw [← Except.ok.inj ht]
      refine ⟨?_, h.2⟩
      refine (h.1.filter _).trans (List.Perm.of_eq ?_)
      rw [List.filter_map]
      congr 1
      apply List.filter_congr
      intro e _
      simp [reEntry, hf.eq_iff]
    · next hle =>
      rw [if_neg hle]
      refine ⟨_, rfl, ?_⟩
      rw [← Except.ok.inj ht]
      refine ⟨?_, h.2⟩
      refine (h.1.map _).trans (List.Perm.of_eq ?_)
      rw [List.map_map, List.map_map]
      apply List.map_congr_left
      intro e _
      simp only [Function.comp, reEntry, hf.eq_iff]
      split <;> rfl

theorem reseats_meet {f : κ → κ} (hf : f.Injective) {t u t' : Tourney κ} {a b : κ} {coin : ℝ} (h : Reseats f t u)
    (hl : 0 ≤ t.matchlength) (hn : (t.alive.map (·.1)).Nodup) (ha : a ∈ t.alive.map (·.1)) (hb : b ∈ t.alive.map (·.1))
    (ht : t.meet a b coin = .ok t') :
    ∃ u', u.meet (f a) (f b) coin = .ok u' ∧ Reseats f t' u' := by
  obtain ⟨pa, hpa, hma⟩ := player_ok t a ha
  obtain ⟨pb, hpb, hmb⟩ := player_ok t b hb
  have hu : ∀ {k p}, (k, p) ∈ t.alive → u.player (f k) = .ok p := by
    intro k p hm
    apply player_mem (h.nodup hf hn)
    rw [h.1.mem_iff, List.mem_map]
    exact ⟨_, hm, rfl⟩
  rw [meet_eq t a b coin hl hpa hpb] at ht
  rw [meet_eq u (f a) (f b) coin (by rw [h.2]; exact hl) (hu hma) (hu hmb), h.2]
  obtain ⟨u', h1, h2⟩ := reseats_lost hf h hn ht
  refine ⟨u', ?_, h2⟩
  rw [← h1]
  split <;> rfl

theorem reseats_pairs {f : κ → κ} (hf : f.Injective) (xs : List κ) : ∀ (t u : Tourney κ) (coins : Nat → ℝ) (i : Nat),
    Reseats f t u → Proper t → 0 ≤ t.matchlength → xs.Nodup → (∀ k ∈ xs, k ∈ t.alive.map (·.1)) →
    ∃ t' u', t.pairs coins i xs = .ok t' ∧ u.pairs coins i (xs.map f) = .ok u' ∧ Reseats f t' u' := by
  induction xs using List.twoStepInduction with
  | nil => intro t u coins i h _ _ _ _; exact ⟨t, u, rfl, rfl, h⟩
  | singleton x => intro t u coins i h _ _ _ _; exact ⟨t, u, rfl, rfl, h⟩
  | cons_cons a b xs ih _ =>
    intro t u coins i h hp hlen hnd hmem
    have ha := hmem a (by simp)
    have hb := hmem b (by simp)
    obtain ⟨k, t1, hk, hm, hl⟩ := meet_spec t a b (coins i) hp hlen ha hb
    obtain ⟨t1', hl', p1, p2, p3, p4, p5, p6, p7⟩ := lost_spec t k hp (by rcases hk with rfl | rfl <;> assumption)
    rw [hl] at hl'
    cases hl'
    obtain ⟨u1, hu1, hr1⟩ := reseats_meet hf h hlen (List.nodup_append.1 hp).1 ha hb hm
    simp only [List.nodup_cons, List.mem_cons, not_or] at hnd
    obtain ⟨t', u', q0, q1, q2⟩ := ih t1 u1 coins (i + 1) hr1 p1 (by rw [p5]; exact hlen) hnd.2.2 (by
      intro k' hk'
      refine p7 k' ?_ (hmem k' (by simp [hk']))
      rintro rfl
      rcases hk with rfl | rfl
      · exact hnd.1.2 hk'
      · exact hnd.2.1 hk')
    refine ⟨t', u', ?_, ?_, q2⟩
    · rw [Tourney.pairs, hm]; exact q0
    · rw [List.map_cons, List.map_cons, Tourney.pairs, hu1]; exact q1

/-! ### Keys in ascending order -/

/-- The keys are in ascending order, as those of a dictionary of small numbers are. -/
def Ascending (t : Tourney Nat) : Prop := (t.alive.map (·.1)).Pairwise (· < ·)

theorem ascending_lost {t t' : Tourney Nat} {k : Nat} (h : Ascending t) (ht : t.lost k = .ok t') : Ascending t' := by
  unfold Tourney.lost at ht
  cases hp : t.player k with
  | error e => simp [hp, bind, Except.bind] at ht
  | ok p =>
    simp only [hp, bind, Except.bind, pure, Except.pure] at ht
    split at ht
    · rw [← Except.ok.inj ht]
      exact List.Pairwise.sublist (List.filter_sublist.map _) h
    · rw [← Except.ok.inj ht]
      unfold Ascending
      have : (t.alive.map fun e => if e.1 = k then (k, (⟨p.lives - 1, p.rating⟩ : Player)) else e).map (·.1) = t.alive.map (·.1) := by
        rw [List.map_map]
        apply List.map_congr_left
        intro e _
        simp only [Function.comp]
        split
        · next h => exact h.symm
        · rfl
      rw [this]; exact h

theorem ascending_meet {t t' : Tourney Nat} {a b : Nat} {coin : ℝ} (h : Ascending t) (ht : t.meet a b coin = .ok t') :
    Ascending t' := by
  unfold Tourney.meet at ht
  simp only [bind, Except.bind] at ht
  split at ht
  · simp at ht
  · split at ht
    · simp at ht
    · split at ht
      · simp at ht
      · split at ht <;> exact ascending_lost h ht

theorem ascending_pairs (xs : List Nat) : ∀ (t t' : Tourney Nat) (coins : Nat → ℝ) (i : Nat), Ascending t →
    t.pairs coins i xs = .ok t' → Ascending t' := by
  induction xs using List.twoStepInduction with
  | nil => intro t t' coins i h ht; rw [← Except.ok.inj ht]; exact h
  | singleton x => intro t t' coins i h ht; rw [← Except.ok.inj ht]; exact h
  | cons_cons a b xs ih _ =>
    intro t t' coins i h ht
    rw [Tourney.pairs] at ht
    cases hm : t.meet a b (coins i) with
    | error e => simp [hm] at ht
    | ok t1 => rw [hm] at ht; exact ih t1 t' coins (i + 1) (ascending_meet h hm) ht

theorem sort_ascending {l m : List Nat} (h : l.Pairwise (· < ·)) (hp : m.Perm l) : m.mergeSort (· ≤ ·) = l := by
  have h1 : (m.mergeSort (· ≤ ·)).Pairwise (· ≤ ·) := by
    have := List.pairwise_mergeSort (le := fun a b : Nat => decide (a ≤ b)) (by simp; omega) (by simp; omega) m
    exact this.imp (by simp)
  exact List.Perm.eq_of_pairwise (fun a b _ _ h1 h2 => Nat.le_antisymm h1 h2) h1 (h.imp Nat.le_of_lt)
    ((List.mergeSort_perm m _).trans hp)

theorem reseats_run (f : Equiv.Perm Nat) (x : Luck) (hx : Luck.Fair x) : ∀ (fuel n : Nat) (t u : Tourney Nat) (t' : Tourney Nat),
    Reseats f t u → Proper t → 0 ≤ t.matchlength → Ascending t → Ascending u →
    t.run x.shuffle x.coins fuel n = .ok t' →
    ∃ u', u.run (Luck.reseated f x).shuffle (Luck.reseated f x).coins fuel n = .ok u' ∧ Reseats f t' u' := by
  intro fuel
  induction fuel with
  | zero => intro n t u t' _ _ _ _ _ ht; simp [Tourney.run] at ht
  | succ fuel ih =>
    intro n t u t' h hp hl at' au ht
    rw [Tourney.run] at ht ⊢
    have hlen : u.alive.length = t.alive.length := by rw [h.1.length_eq]; simp
    rw [hlen]
    split at ht
    · next hlt =>
      rw [if_pos hlt]
      have e : (Luck.reseated f x).shuffle n (u.alive.map (·.1)) = (x.shuffle n (t.alive.map (·.1))).map f := by
        unfold Luck.reseated
        simp only
        rw [sort_ascending at']
        have := h.keys.map f.symm
        simpa [Function.comp_def] using this
      rw [e]
      have hxs := hx n (t.alive.map (·.1))
      have hnd : (t.alive.map (·.1)).Nodup := (List.nodup_append.1 hp).1
      obtain ⟨t1, u1, q0, q1, q2⟩ := reseats_pairs f.injective (x.shuffle n (t.alive.map (·.1))) t u (x.coins n) 0 h hp hl
        (hxs.nodup_iff.2 hnd) (fun k hk => hxs.mem_iff.1 hk)
      obtain ⟨t1', r0, r1, _, _, _, r5, _⟩ := pairs_spec (x.shuffle n (t.alive.map (·.1))) t (x.coins n) 0 hp hl
        (hxs.nodup_iff.2 hnd) (fun k hk => hxs.mem_iff.1 hk)
      rw [q0] at r0
      cases r0
      unfold Tourney.round at ht ⊢
      rw [q0] at ht
      have : (Luck.reseated f x).coins = x.coins := rfl
      rw [this, q1]
      exact ih (n + 1) t1 u1 t' q2 r1 (by rw [r5]; exact hl) (ascending_pairs _ _ _ _ _ at' q0)
        (ascending_pairs _ _ _ _ _ au q1) ht
    · next hlt =>
      rw [if_neg hlt]
      exact ⟨u, rfl, by rw [← Except.ok.inj ht]; exact h⟩

end Bglib
