import Verif.Lemmas.Suggested
import Verif.Props.PickupRules
import Verif.Props.Course
/-
C91: a turn played with the suggestions of the move factory.
-/
namespace Bglib
open Spec Factory

/-- **C91**, legal: whatever suggestions are played and whatever last movements taken back, the recorded movements are a
legal play that leads to the board, the dice of the roll are those of the play and those left, and the factory is in the
state it would have if just the recorded movements had been played. -/
theorem C91_legal (b : Board) (hv : Valid b) (h1 : 1 ≤ b.rolled.1 ∧ b.rolled.1 ≤ 6) (h2 : 1 ≤ b.rolled.2 ∧ b.rolled.2 ≤ 6)
    (f : Factory) (h : Suggested b f) :
    PlayTo b f.move f.board ∧ (f.move.map (·.die) ++ diceLeft f.avail).Perm (diceOf b.rolled) ∧
      (Factory.new b).addAll f.move = ⟨f, none⟩ := by
  have hp := suggested_playing hv h1 h2 h
  refine ⟨hp.play, ?_, ?_⟩
  · rw [List.perm_iff_count]
    intro d
    rw [List.count_append, count_diceLeft]
    have := hp.dice d
    omega
  · have hd := hp.dice
    have hnum := fun d => num_ofRoll h1 h2 d
    obtain ⟨a', e, hx, hn⟩ := addAll_play hp.play hv (Factory.new b) rfl (by intro p hp; simp [Factory.new] at hp) (by
      intro d
      have := hd d
      have := hnum d
      simp only [Factory.new]
      omega)
    have : a' = f.avail := by
      apply avail_ext
      · intro d
        have q1 := hd d
        have q2 := hnum d
        have q3 := hn d
        simp only [Factory.new] at q3
        omega
      · rw [hx, hp.extra]
        exact ofRoll_extra h1 h2
    rw [e, this]
    rfl

/-- **C91**: what is suggested is never refused, and the last movement can always be taken back; asking how gives the
answer and changes nothing. -/
theorem C91_accepted (b : Board) (hv : Valid b) (h1 : 1 ≤ b.rolled.1 ∧ b.rolled.1 ≤ 6)
    (h2 : 1 ≤ b.rolled.2 ∧ b.rolled.2 ≤ 6) (f : Factory) (h : Suggested b f) :
    (∀ pms, Offered f pms → ∃ f', f.addAll pms = ⟨f', none⟩ ∧ f'.move = f.move ++ pms) ∧
    (∀ pms pm, f.move = pms ++ [pm] →
      f.multipleUndoes pm.dest pm.src = ⟨f.board, .ok (some [pm.inverse])⟩ ∧
      ∃ f', f.append pm.inverse = ⟨f', none⟩ ∧ f'.move = pms) := by
  have hp := suggested_playing hv h1 h2 h
  refine ⟨fun pms ho => ?_, fun pms pm hm => ⟨?_, ?_⟩⟩
  · obtain ⟨⟨c, hc⟩, hd⟩ := offered_play hv hp ho
    obtain ⟨f1, e, e2, _⟩ := playing_play hv hp hc hd
    exact ⟨f1, e, e2⟩
  · have hlt := playTo_forward hp.play pm (by rw [hm]; simp)
    unfold multipleUndoes undoLoop
    rw [if_neg (by omega), hm]
    simp [moveFind, PartialMove.inverse, moveAppend, removeInvertible]
  · obtain ⟨f1, e, e2, _⟩ := playing_back hv hp hm
    exact ⟨f1, e, e2⟩

/-- **C91**, complete: every board that a legal play of the roll leads to can be reached by playing suggestions. -/
theorem C91_complete (b : Board) (hv : Valid b) (h1 : 1 ≤ b.rolled.1 ∧ b.rolled.1 ≤ 6)
    (h2 : 1 ≤ b.rolled.2 ∧ b.rolled.2 ≤ 6) (pms : List PartialMove) (c : Board) (hp : PlayTo b pms c)
    (hu : UsesDice pms (diceOf b.rolled)) : ∃ f, Suggested b f ∧ f.board = c :=
  suggested_complete hv h1 h2 _ pms c (Factory.new b) rfl .start hp (fun d => by
    have := hu d
    simp only [Factory.new, num_ofRoll h1 h2]
    exact this)

/-- **C91**: the boards seen are boards of the game (C89). -/
theorem C91_course (b : Board) (ht : Table b) (h1 : 1 ≤ b.rolled.1 ∧ b.rolled.1 ≤ 6)
    (h2 : 1 ≤ b.rolled.2 ∧ b.rolled.2 ≤ 6) (f : Factory) (h : Suggested b f) : Course b f.board := by
  have hp := (suggested_playing (table_valid ht) h1 h2 h).play
  have : ∀ (b0 c d : Board) (pms : List PartialMove), Table b0 → Course b0 c → PlayTo c pms d → Course b0 d := by
    intro b0 c d pms ht hc hp
    induction hp with
    | nil => exact hc
    | @cons c c1 d pm pms hs _ ih =>
      have hv := table_valid (course_same ht hc).1
      obtain ⟨c', hm, hs', _⟩ := step_exists hv hs.legal
      obtain rfl := step_unique hs hs'
      exact ih (.next _ _ hc (.move _ _ pm hs.legal hm))
  exact this b b f.board f.move ht .first hp

/-- A chequer on the bar and others on the mid point, double threes rolled. -/
def exBack : Board :=
  { exBoard with
    position := ([0,0,0,0,0,0,0,0,0,0,0,0,3,0,0,0,0,0,0,0,0,0,0,0,1],
                 [0,0,0,0,0,2,0,0,0,0,0,0,0,0,0,0,0,0,0,0,0,0,0,0,0])
    rolled := (3, 3) }

theorem exBack_valid : Valid exBack := valid_of_rows (Or.inl rfl) rfl rfl (by decide) (by decide)

/-- C91, disagreement: the factory also suggests how to take back an earlier movement. Played, this may leave movements that
are not allowed: after bar/22, 13/10 the first can be taken back, and the dice may be picked up with a chequer on the bar and
another one moved. -/
theorem C91_false_back : ∃ f f' u, Suggested exBack f ∧ f.move = [⟨3, 24, 21, false⟩, ⟨3, 12, 9, false⟩] ∧
    f.multipleUndoes 21 24 = ⟨f.board, .ok (some [u])⟩ ∧ f.append u = ⟨f', none⟩ ∧
    (¬ ∃ c, PlayTo exBack f'.move c) ∧ cnt (mine f'.board) 24 = 1 ∧ cnt (mine f'.board) 9 = 1 ∧
    f'.pickupDice.err = none := by
  let f1 := ((Factory.new exBack).addAll [⟨3, 24, 21, false⟩]).st
  let f2 := (f1.addAll [⟨3, 12, 9, false⟩]).st
  let f3 := (f2.append ⟨3, 21, 24, false⟩).st
  have s1 : Suggested exBack f1 := .play (Factory.new exBack) f1 [⟨3, 24, 21, false⟩] .start
    (.source 24 _ (by decide +kernel)) (by decide +kernel)
  have s2 : Suggested exBack f2 := .play f1 f2 [⟨3, 12, 9, false⟩] s1 (.source 12 _ (by decide +kernel)) (by decide +kernel)
  refine ⟨f2, f3, ⟨3, 21, 24, false⟩, s2, by decide +kernel, by decide +kernel, by decide +kernel, ?_, by decide +kernel,
    by decide +kernel, by decide +kernel⟩
  have hm : f3.move = [⟨3, 12, 9, false⟩] := by decide +kernel
  rw [hm]
  rintro ⟨c, hc⟩
  cases hc with
  | cons hs _ =>
    rcases hs.legal with h | h
    · have := h.2.2.2.2.2.2.1 (by decide)
      exact absurd this (by decide)
    · exact absurd h.1 (by decide)

/-- C91, composed with C19: for a turn played with suggestions the factory lets the dice be picked up exactly if no legal play
of the roll is longer, as far as C19 goes: no chequer on the bar can enter, and with different dice not just one is
played without the other being playable. -/
theorem C91_over_partial (b : Board) (hv : Valid b) (h1 : 1 ≤ b.rolled.1 ∧ b.rolled.1 ≤ 6)
    (h2 : 1 ≤ b.rolled.2 ∧ b.rolled.2 ≤ 6) (f : Factory) (h : Suggested b f)
    (hbar : cnt (mine f.board) 24 = 0 ∨ ¬ CanMove f.board (diceLeft f.avail))
    (hcase : b.rolled.1 = b.rolled.2 ∨ f.move.length ≠ 1 ∨ CanMove f.board (diceLeft f.avail)) :
    f.isLegalToPickupDice.st = f.board ∧ (f.isLegalToPickupDice.res = .ok true ↔ TurnOver b f.move.length) := by
  obtain ⟨hp, hd, ha⟩ := C91_legal b hv h1 h2 f h
  have hu : UsesDice f.move (diceOf b.rolled) := by
    intro d
    have := hd.count_eq d
    rw [List.count_append] at this
    omega
  obtain ⟨q1, _, q3⟩ := C19_partial b f.board f.move f hv h1 h2 hp hu ha hbar hcase
  exact ⟨q1, q3⟩

/-- C91, composed with C19: in a turn played with suggestions, picking up is refused only if the rules do not let
the turn end. -/
theorem C91_refusals (b : Board) (hv : Valid b) (h1 : 1 ≤ b.rolled.1 ∧ b.rolled.1 ≤ 6)
    (h2 : 1 ≤ b.rolled.2 ∧ b.rolled.2 ≤ 6) (f : Factory) (h : Suggested b f)
    (hno : f.isLegalToPickupDice.res = .ok false) : ¬ MayStop b f.move := by
  obtain ⟨hp, hd, ha⟩ := C91_legal b hv h1 h2 f h
  refine C19_refusals b f.board f.move f hv h1 h2 hp ?_ ha hno
  intro d
  have := hd.count_eq d
  rw [List.count_append] at this
  omega

/-! ### Non-vacuity -/

/-- A suggestion played and taken back. -/
example : ∃ f, Suggested exBack f ∧ f.move = [⟨3, 24, 21, false⟩] :=
  let f1 := ((Factory.new exBack).addAll [⟨3, 24, 21, false⟩]).st
  ⟨f1, .play (Factory.new exBack) f1 [⟨3, 24, 21, false⟩] .start (.source 24 _ (by decide +kernel)) (by decide +kernel),
    by decide +kernel⟩

example : Valid exBack := exBack_valid

end Bglib
