import Verif.Lemmas.Contest
import Verif.Props.Stat
/-
C115: what a tournament does to the players it is given.
-/
namespace Bglib
open Spec Classical
variable {κ : Type} [DecidableEq κ]

/-- **C115**: when every entry has a player object of its own, the tournament goes as if the players were
part of it (`Model/Stat.lean`), so that all that C29 and C102 say holds for it. -/
theorem C115_apart (c : Contest κ) (shuffle : Nat → List κ → List κ) (coins : Nat → Nat → ℝ) (fuel n : Nat)
    (hs : ∀ i l, (shuffle i l).Perm l) (hk : KeysOnce c) (ho : PlayersOnce c) (hl : 0 ≤ c.matchlength) :
    (look c).run shuffle coins fuel n = (c.run shuffle coins fuel n).map look :=
  look_run shuffle coins hs fuel c n ⟨⟨hk, hl⟩, ho⟩

/-- **C115**: a new tournament among given players looks as the entries do. -/
theorem C115_entries (players : Nat → Player) (entries : List (κ × Nat)) :
    look (Contest.ofEntries players entries) = Tourney.ofEntries (entries.map fun e => (e.1, players e.2)) ∧
      (look (Contest.ofEntries players entries)).matchlength = 7 :=
  ⟨rfl, rfl⟩

/-- **C115**: even when entries share player objects, in any way, the tournament ends, with exactly one
entry in. -/
theorem C115_ends (players : Nat → Player) (entries : List (κ × Nat)) (shuffle : Nat → List κ → List κ)
    (coins : Nat → Nat → ℝ) (n : Nat) (hs : ∀ i l, (shuffle i l).Perm l) (hk : (entries.map (·.1)).Nodup)
    (hne : entries ≠ []) :
    ∃ c', (Contest.ofEntries players entries).run shuffle coins (takes (Contest.ofEntries players entries)) n =
      .ok c' ∧ c'.alive.length = 1 := by
  have hc : Plainly (Contest.ofEntries players entries) :=
    ⟨by unfold KeysOnce Contest.ofEntries; simpa using hk, by simp [Contest.ofEntries]⟩
  obtain ⟨c', h⟩ := contest_ends plainly_kept shuffle coins hs _ _ n (Nat.le_refl _) hc hne
  exact ⟨c', h, (contest_kept plainly_kept shuffle coins hs _ _ c' n hc hne h).2⟩

/-- **C115**: what is left of the players when a tournament is over.  Everybody but one entry has lost all
lives (and one more, if there were none to start with); that one has some left, or just as many as before
if there was at most one to lose.  Ratings, and players not entered, are as they were. -/
theorem C115_left (players : Nat → Player) (entries : List (κ × Nat)) (shuffle : Nat → List κ → List κ)
    (coins : Nat → Nat → ℝ) (fuel n : Nat) (c' : Contest κ) (hs : ∀ i l, (shuffle i l).Perm l)
    (hk : (entries.map (·.1)).Nodup) (ho : (entries.map (·.2)).Nodup) (hne : entries ≠ [])
    (h : (Contest.ofEntries players entries).run shuffle coins fuel n = .ok c') :
    ∃ w ∈ entries, c'.alive = [w] ∧ LivesIn (players w.2).lives (c'.players w.2).lives ∧
      (∀ e ∈ entries, e ≠ w → (c'.players e.2).lives = livesOut (players e.2).lives) ∧
      (∀ i, (c'.players i).rating = (players i).rating) ∧
      ∀ i, i ∉ entries.map (·.2) → c'.players i = players i := by
  obtain ⟨hl, h1⟩ := contest_kept (left_kept players entries) shuffle coins hs fuel _ c' n
    (left_start players entries hk ho) hne h
  obtain ⟨w, hw⟩ := List.length_eq_one_iff.1 h1
  refine ⟨w, hl.all.mem_iff.1 (by simp [hw]), hw, hl.alive w (by simp [hw]), ?_, hl.ratings, hl.others⟩
  intro e he hew
  have := hl.all.mem_iff.2 he
  rw [hw] at this
  simp only [List.mem_append, List.mem_singleton] at this
  rcases this with h | h
  · exact absurd h hew
  · exact hl.dead e h

/-- **C115 is false of the code** in that the entries are not left as they were: whoever gives two players or
more to a tournament gets, whatever happens in it, players back that are not the same. -/
theorem C115_false_unchanged (players : Nat → Player) (entries : List (κ × Nat))
    (shuffle : Nat → List κ → List κ) (coins : Nat → Nat → ℝ) (fuel n : Nat) (c' : Contest κ)
    (hs : ∀ i l, (shuffle i l).Perm l) (hk : (entries.map (·.1)).Nodup) (ho : (entries.map (·.2)).Nodup)
    (h2 : 2 ≤ entries.length) (h : (Contest.ofEntries players entries).run shuffle coins fuel n = .ok c') :
    ∃ e ∈ entries, c'.players e.2 ≠ players e.2 := by
  have hne : entries ≠ [] := by rintro rfl; simp at h2
  obtain ⟨w, hw, _, _, hout, _⟩ := C115_left players entries shuffle coins fuel n c' hs hk ho hne h
  have : ∃ e ∈ entries, e ≠ w := by
    by_contra hc
    have hall : ∀ e ∈ entries, e = w := fun e he => by
      by_contra hx
      exact hc ⟨e, he, hx⟩
    match entries, h2, hk, hall with
    | a :: b :: r, _, hk, hall =>
      have e1 := hall a (by simp)
      have e2 := hall b (by simp)
      simp [e1, e2] at hk
  obtain ⟨e, he, hew⟩ := this
  refine ⟨e, he, fun hs => ?_⟩
  have := hout e he hew
  rw [hs] at this
  unfold livesOut at this
  omega

/-- **C115 is false of the code** in that a second tournament among the same entries is not like the first:
everybody who had lives to lose in the first and lost it has none now, and goes out with the first defeat,
or wins without any. -/
theorem C115_false_again (players : Nat → Player) (entries : List (κ × Nat))
    (shuffle shuffle' : Nat → List κ → List κ) (coins coins' : Nat → Nat → ℝ) (fuel fuel' n n' : Nat)
    (c c' : Contest κ) (hs : ∀ i l, (shuffle i l).Perm l) (hs' : ∀ i l, (shuffle' i l).Perm l)
    (hk : (entries.map (·.1)).Nodup) (ho : (entries.map (·.2)).Nodup) (hne : entries ≠ [])
    (hl : ∀ e ∈ entries, 1 ≤ (players e.2).lives)
    (h : (Contest.ofEntries players entries).run shuffle coins fuel n = .ok c)
    (h' : (Contest.ofEntries c.players entries).run shuffle' coins' fuel' n' = .ok c') :
    ∃ w w', c.alive = [w] ∧ c'.alive = [w'] ∧
      ∀ e ∈ entries, e ≠ w → (c.players e.2).lives = 0 ∧ (c'.players e.2).lives = if e = w' then 0 else -1 := by
  obtain ⟨w, _, a1, _, a2, _⟩ := C115_left players entries shuffle coins fuel n c hs hk ho hne h
  obtain ⟨w', _, b1, b3, b2, _⟩ := C115_left c.players entries shuffle' coins' fuel' n' c' hs' hk ho hne h'
  refine ⟨w, w', a1, b1, fun e he hew => ?_⟩
  have l0 : (c.players e.2).lives = 0 := by
    rw [a2 e he hew]
    have := hl e he
    unfold livesOut
    omega
  refine ⟨l0, ?_⟩
  split
  · next hw =>
    subst hw
    unfold LivesIn at b3
    omega
  · next hw =>
    rw [b2 e he hw, l0]
    rfl

/-- Two players with three lives each, who play twice; and two entries for one and the same player. -/
example : (∃ c, (Contest.ofEntries (fun _ => ⟨3, 1000⟩) [('a', 0), ('b', 1)]).run (fun _ l => l) (fun _ _ => 0)
      (takes (Contest.ofEntries (fun _ => ⟨3, 1000⟩) [('a', 0), ('b', 1)])) 0 = .ok c ∧ c.alive.length = 1 ∧
      ∃ c', (Contest.ofEntries c.players [('a', 0), ('b', 1)]).run (fun _ l => l) (fun _ _ => 0)
        (takes (Contest.ofEntries c.players [('a', 0), ('b', 1)])) 0 = .ok c') ∧
    ∃ c, (Contest.ofEntries (fun _ => ⟨3, 1000⟩) [('a', 0), ('b', 0)]).run (fun _ l => l) (fun _ _ => 0)
      (takes (Contest.ofEntries (fun _ => ⟨3, 1000⟩) [('a', 0), ('b', 0)])) 0 = .ok c := by
  have p : ∀ (i : Nat) (l : List Char), ((fun _ l => l) i l : List Char).Perm l := fun _ _ => List.Perm.refl _
  obtain ⟨c, h, h1⟩ := C115_ends (fun _ => ⟨3, 1000⟩) [('a', 0), ('b', 1)] (fun _ l => l) (fun _ _ => 0) 0 p
    (by simp) (by simp)
  obtain ⟨c', h', _⟩ := C115_ends c.players [('a', 0), ('b', 1)] (fun _ l => l) (fun _ _ => 0) 0 p (by simp) (by simp)
  obtain ⟨c2, h2, _⟩ := C115_ends (fun _ => ⟨3, 1000⟩) [('a', 0), ('b', 0)] (fun _ l => l) (fun _ _ => 0) 0 p
    (by simp) (by simp)
  exact ⟨⟨c, h, h1, c', h'⟩, c2, h2⟩

end Bglib
