import Verif.Props.Pickup
import Verif.Lemmas.PickupRewound
/-
C19, continued: what the question whether the dice may be picked up answers in the cases left out by
`C19_partial`.
-/
namespace Bglib
open Spec Factory

/-- Full statement: after any legal part of a turn the answer is yes exactly when the rules let the turn end. -/
def C19_rules_statement : Prop := ∀ (b b1 : Board) (pms : List PartialMove) (f : Factory), Valid b →
  (1 ≤ b.rolled.1 ∧ b.rolled.1 ≤ 6) → (1 ≤ b.rolled.2 ∧ b.rolled.2 ≤ 6) →
  PlayTo b pms b1 → UsesDice pms (diceOf b.rolled) → (Factory.new b).addAll pms = ⟨f, none⟩ →
  (f.isLegalToPickupDice.res = .ok true ↔ MayStop b pms)

/-- **C19**: asking never raises; afterwards the board is as it was, or as it was at the start of the turn. -/
theorem C19_answers (b b1 : Board) (pms : List PartialMove) (f : Factory) (hv : Valid b)
    (h1 : 1 ≤ b.rolled.1 ∧ b.rolled.1 ≤ 6) (h2 : 1 ≤ b.rolled.2 ∧ b.rolled.2 ≤ 6)
    (hp : PlayTo b pms b1) (hu : UsesDice pms (diceOf b.rolled))
    (hf : (Factory.new b).addAll pms = ⟨f, none⟩) :
    ∃ r, f.isLegalToPickupDice = ⟨b1, .ok r⟩ ∨ f.isLegalToPickupDice = ⟨b, .ok r⟩ := by
  obtain ⟨hpl, hm, hb⟩ := playing_of_addAll hv h1 h2 hp hu hf
  subst hb
  rcases pickup_all hv h1 hpl with ⟨_, e⟩ | ⟨_, _, e⟩ | ⟨_, _, _, e⟩ | ⟨_, _, _, _, e⟩ | ⟨_, _, _, _, r, e, _⟩
  · exact ⟨true, Or.inl e⟩
  · exact ⟨false, Or.inl e⟩
  · exact ⟨true, Or.inl e⟩
  · exact ⟨true, Or.inl e⟩
  · exact ⟨r, Or.inr e⟩

/-- **C19**: while a chequer is on the bar the answer is yes, whatever can be played. -/
theorem C19_bar (b b1 : Board) (pms : List PartialMove) (f : Factory) (hv : Valid b)
    (h1 : 1 ≤ b.rolled.1 ∧ b.rolled.1 ≤ 6) (h2 : 1 ≤ b.rolled.2 ∧ b.rolled.2 ≤ 6)
    (hp : PlayTo b pms b1) (hu : UsesDice pms (diceOf b.rolled))
    (hf : (Factory.new b).addAll pms = ⟨f, none⟩) (hbar : cnt (mine b1) 24 ≠ 0) :
    f.isLegalToPickupDice.res = .ok true := by
  obtain ⟨hpl, hm, hb⟩ := playing_of_addAll hv h1 h2 hp hu hf
  subst hb
  have hb0 := bar_before hv hp hbar
  have hnf : ∀ e, ¬ FromPoint b e := by
    rintro e ⟨src, dest, hit, h, hl⟩
    have := (legalStep_movable hl).2.2.2 hb0
    omega
  have hnb : ¬ BothByOne b (diceOf b.rolled) := by
    rintro ⟨q, src, dest, ⟨⟨c, hc⟩, _⟩, hl, hlead, hs, _⟩
    cases hc with
    | nil => simp at hl
    | cons s _ =>
      have h3 : _ = src := hlead.1
      have := (legalStep_movable s.legal).2.2.2 hb0
      omega
  rcases pickup_all hv h1 hpl with ⟨_, e⟩ | ⟨_, h0, _⟩ | ⟨_, _, _, e⟩ | ⟨_, _, _, _, e⟩ | ⟨_, _, pm, _, r, e, hr⟩
  · rw [e]
  · exact absurd h0 hbar
  · rw [e]
  · rw [e]
  · rw [e]
    cases r with
    | true => rfl
    | false =>
      rcases hr.1 rfl with h | h
      · exact absurd h hnb
      · exact absurd h.2 (hnf _)

/-- The opening position with a chequer on the bar that has not entered. -/
example : ∃ (b : Board) (f : Factory), Valid b ∧ (Factory.new b).addAll [] = ⟨f, none⟩ ∧ cnt (mine b) 24 ≠ 0 :=
  ⟨exBar, _, exBar_valid, rfl, by decide⟩

/-- **C19**: two different dice, one of them played, the other not playable, nobody on the bar.  The answer
is no exactly when both dice could have been played with one chequer from a point to a point, or the smaller
die was played and the larger one could have been from a point; and the movement has been taken back on
the board. -/
theorem C19_one_die (b b1 : Board) (pm : PartialMove) (f : Factory) (hv : Valid b)
    (h1 : 1 ≤ b.rolled.1 ∧ b.rolled.1 ≤ 6) (h2 : 1 ≤ b.rolled.2 ∧ b.rolled.2 ≤ 6)
    (hp : PlayTo b [pm] b1) (hu : UsesDice [pm] (diceOf b.rolled))
    (hf : (Factory.new b).addAll [pm] = ⟨f, none⟩) (hne : b.rolled.1 ≠ b.rolled.2)
    (hbar : cnt (mine b1) 24 = 0) (hc : ¬ CanMove b1 (diceLeft f.avail)) :
    f.isLegalToPickupDice.st = b ∧
    (f.isLegalToPickupDice.res = .ok false ↔ BothByOne b (diceOf b.rolled) ∨
      (pm.die ≠ max b.rolled.1 b.rolled.2 ∧ FromPoint b (max b.rolled.1 b.rolled.2))) := by
  obtain ⟨hpl, hm, hb⟩ := playing_of_addAll hv h1 h2 hp hu hf
  subst hb
  have h2l : (diceOf b.rolled).length = 2 := by unfold diceOf; rw [if_neg hne]; rfl
  rcases pickup_all hv h1 hpl with ⟨h, _⟩ | ⟨h, _⟩ | ⟨_, h, _⟩ | ⟨_, h, _⟩ | ⟨_, _, pm', hpm, r, e, hr⟩
  · rw [hm, h2l] at h; simp at h
  · exact absurd h hc
  · rw [hm] at h
    rcases h with h | h
    · exact absurd h hne
    · simp at h
  · exact absurd hbar h
  · rw [hm] at hpm
    obtain rfl := List.cons.inj hpm |>.1
    rw [e]
    refine ⟨rfl, ?_⟩
    simp only [Except.ok.injEq]
    exact hr

/-- 24/23 on the board of `C19_board_false`: the six is not playable afterwards. -/
example : ∃ b1 f, PlayTo exRewind [⟨1, 23, 22, false⟩] b1 ∧
    (Factory.new exRewind).addAll [⟨1, 23, 22, false⟩] = ⟨f, none⟩ ∧ cnt (mine b1) 24 = 0 ∧
    ¬ CanMove b1 (diceLeft f.avail) := by
  have hv : Valid exRewind := valid_of_rows (Or.inl rfl) rfl rfl (by decide) (by decide)
  obtain ⟨b1, h1, s1, v1, _⟩ := step_exists (pm := ⟨1, 23, 22, false⟩) hv (by left; unfold LegalMove; decide)
  have hb1 : b1 = { exRewind with position :=
      ([0,0,0,0,0,0,0,0,0,0,0,0,0,0,0,0,0,0,0,0,0,0,1,0,0], exRewind.position.2) } := by
    have : exRewind.makePartialMove ⟨1, 23, 22, false⟩ = .ok { exRewind with position :=
      ([0,0,0,0,0,0,0,0,0,0,0,0,0,0,0,0,0,0,0,0,0,0,1,0,0], exRewind.position.2) } := by decide
    rw [this] at h1; cases h1; rfl
  subst hb1
  refine ⟨_, ⟨{ exRewind with position :=
      ([0,0,0,0,0,0,0,0,0,0,0,0,0,0,0,0,0,0,0,0,0,0,1,0,0], exRewind.position.2) },
    [⟨1, 23, 22, false⟩], { d6 := 1 }⟩, .cons s1 (.nil _), by decide, by decide, ?_⟩
  have ha := anySingle_points v1 { d6 := 1 }
  obtain ⟨r, hr, hi⟩ := ha
  refine canMove_of (by decide) (hi.1 ?_)
  have : anySingle { exRewind with position :=
      ([0,0,0,0,0,0,0,0,0,0,0,0,0,0,0,0,0,0,0,0,0,0,1,0,0], exRewind.position.2) } { d6 := 1 } (pyRange 0 24) =
      .ok false := by decide
  rw [this] at hr
  exact (Except.ok.inj hr).symm

/-- **C19**: a turn that the rules let end is never refused: whenever the answer is no, a longer legal play
of the roll exists, or one of the same length with a higher die. -/
theorem C19_refusals (b b1 : Board) (pms : List PartialMove) (f : Factory) (hv : Valid b)
    (h1 : 1 ≤ b.rolled.1 ∧ b.rolled.1 ≤ 6) (h2 : 1 ≤ b.rolled.2 ∧ b.rolled.2 ≤ 6)
    (hp : PlayTo b pms b1) (hu : UsesDice pms (diceOf b.rolled))
    (hf : (Factory.new b).addAll pms = ⟨f, none⟩) (hno : f.isLegalToPickupDice.res = .ok false) :
    ¬ MayStop b pms := by
  obtain ⟨hpl, hm, hb⟩ := playing_of_addAll hv h1 h2 hp hu hf
  subst hb
  rintro ⟨hto, hsum⟩
  rcases pickup_all hv h1 hpl with ⟨_, e⟩ | ⟨hc, _, e⟩ | ⟨_, _, _, e⟩ | ⟨_, _, _, _, e⟩ | ⟨hne, _, pm, hpm, r, e, hr⟩
  · rw [e] at hno; simp at hno
  · obtain ⟨q, hq, hql⟩ := canMove_longer (ds := diceOf b.rolled) hv hp
      (by intro d; have := hpl.dice d; rw [hm] at this; rwa [count_diceLeft]) hc
    have := hto q hq
    omega
  · rw [e] at hno; simp at hno
  · rw [e] at hno; simp at hno
  · rw [e] at hno
    simp only [Except.ok.injEq] at hno
    rw [hm] at hpm
    subst hpm
    rcases hr.1 hno with ⟨q, _, _, hq, hl, _⟩ | ⟨hd, src, dest, hit, _, hl⟩
    · have := hto q hq
      simp at this; omega
    · have := hsum [⟨max b.rolled.1 b.rolled.2, src, dest, hit⟩] (playable_one hv max_mem hl) rfl
      simp only [List.map_cons, List.map_nil, List.sum_cons, List.sum_nil] at this
      have hmem := usesDice_mem hu pm (by simp)
      unfold diceOf at hmem
      rw [if_neg hne] at hmem
      simp at hmem
      omega

/-- After 8/5 with 3-1 from the opening position the answer is no. -/
example : ∃ f, (Factory.new exBoard).addAll [⟨3, 7, 4, false⟩] = ⟨f, none⟩ ∧
    f.isLegalToPickupDice.res = .ok false := ⟨_, rfl, by decide⟩

/-- **C19**, for the rules of the game.  Provided nobody was on the bar when the turn began, and provided that
two different dice, if they can both be played at all, can be played with one chequer from a point to a
point, the answer is yes exactly when the rules let the turn end. -/
theorem C19_rules_partial (b b1 : Board) (pms : List PartialMove) (f : Factory) (hv : Valid b)
    (h1 : 1 ≤ b.rolled.1 ∧ b.rolled.1 ≤ 6) (h2 : 1 ≤ b.rolled.2 ∧ b.rolled.2 ≤ 6)
    (hp : PlayTo b pms b1) (hu : UsesDice pms (diceOf b.rolled))
    (hf : (Factory.new b).addAll pms = ⟨f, none⟩) (hbar : cnt (mine b) 24 = 0)
    (hone : b.rolled.1 ≠ b.rolled.2 → (∃ q, Playable b (diceOf b.rolled) q ∧ q.length = 2) →
      BothByOne b (diceOf b.rolled)) :
    f.isLegalToPickupDice.res = .ok true ↔ MayStop b pms := by
  constructor
  · intro hyes
    obtain ⟨hpl, hm, hb⟩ := playing_of_addAll hv h1 h2 hp hu hf
    subst hb
    have hb1 : cnt (mine f.board) 24 = 0 := Classical.byContradiction fun h => bar_before hv hp h hbar
    -- plays with as many movements as there are dice use the same dice
    have hfull : ∀ q, Playable b (diceOf b.rolled) q → q.length = (diceOf b.rolled).length →
        (q.map (·.die)).sum = (diceOf b.rolled).sum := by
      intro q hq hl
      obtain ⟨l3, h3⟩ := perm_of_count_le hq.2
      have h4 := h3.length_eq
      simp only [List.length_append, List.length_map] at h4
      have : l3 = [] := List.eq_nil_of_length_eq_zero (by omega)
      subst this
      simp only [List.append_nil] at h3
      exact sum_perm h3.symm
    rcases pickup_all hv h1 hpl with ⟨hl, _⟩ | ⟨_, _, e⟩ | ⟨hlen, hd, hc, e⟩ | ⟨_, h, _⟩ | ⟨hne, hi, pm, hpm, r, e, hr⟩
    · rw [hm] at hl
      refine ⟨fun q hq => ?_, fun q hq hql => ?_⟩
      · have := usesDice_length hq.2; omega
      · rw [hfull q hq (by omega), hfull pms ⟨⟨_, hp⟩, hu⟩ hl]; omega
    · rw [e] at hyes; simp at hyes
    · rw [hm] at hd
      have hc' : ¬ CanMove f.board (diceLeft f.avail) := by
        rcases hc with h | h
        · exact absurd hb1 h
        · exact h
      have hne : diceLeft f.avail ≠ [] := by
        intro h
        have := len_diceLeft f.avail
        rw [h, hpl.extra] at this
        exact hlen this
      refine ⟨turnOver_of_stuck hv hp hu (by intro d; have := hpl.dice d; rw [hm] at this; rwa [count_diceLeft])
        hne hc' hd, fun q hq hql => ?_⟩
      rcases hd with hd | hd
      · have hall : ∀ p : List PartialMove, UsesDice p (diceOf b.rolled) →
            (p.map (·.die)).sum = p.length * b.rolled.1 := by
          intro p hp
          have h5 : ∀ pm ∈ p, pm.die = b.rolled.1 := by
            intro pm h6
            have := usesDice_mem hp pm h6
            unfold diceOf at this
            rw [if_pos hd] at this
            simpa using this
          clear hp
          induction p with
          | nil => simp
          | cons x p ih =>
            simp only [List.map_cons, List.sum_cons, List.length_cons]
            rw [ih (fun pm h => h5 pm (by simp [h])), h5 x (by simp), Int.natCast_add, Int.add_mul]
            omega
        rw [hall q hq.2, hall pms hu, hql]; omega
      · subst hd
        simp at hql; subst hql; simp
    · exact absurd hb1 h
    · rw [e] at hyes
      simp only [Except.ok.injEq] at hyes
      rw [hm] at hpm
      subst hpm
      have hno : ¬ (BothByOne b (diceOf b.rolled) ∨
          (pm.die ≠ max b.rolled.1 b.rolled.2 ∧ FromPoint b (max b.rolled.1 b.rolled.2))) := by
        intro h; have := hr.2 h; rw [hyes] at this; simp at this
      rw [not_or] at hno
      have h2l : (diceOf b.rolled).length = 2 := by unfold diceOf; rw [if_neg hne]; rfl
      refine ⟨fun q hq => ?_, fun q hq hql => ?_⟩
      · have := usesDice_length hq.2
        apply Classical.byContradiction; intro hc
        exact hno.1 (hone hne ⟨q, hq, by simp at hc; omega⟩)
      · match q, hql with
        | [x], _ =>
          simp only [List.map_cons, List.map_nil, List.sum_cons, List.sum_nil]
          have hx := usesDice_mem hq.2 x (by simp)
          unfold diceOf at hx
          rw [if_neg hne] at hx
          simp at hx
          obtain ⟨⟨c, hc⟩, _⟩ := hq
          cases hc with
          | cons s _ =>
          have hms := legalStep_movable s.legal
          have h24 : x.src ≠ 24 := by
            intro h; have := hms.2.2.1; rw [h] at this; exact this hbar
          apply Classical.byContradiction; intro hlt
          have hxm : x.die = max b.rolled.1 b.rolled.2 := by
            have hpm := usesDice_mem hu pm (by simp)
            unfold diceOf at hpm
            rw [if_neg hne] at hpm
            simp at hpm
            omega
          refine hno.2 ⟨by omega, x.src, x.dest, x.isHitting, by omega, hxm ▸ s.legal⟩
  · intro hmay
    obtain ⟨r, e⟩ := C19_answers b b1 pms f hv h1 h2 hp hu hf
    have hres : f.isLegalToPickupDice.res = .ok r := by rcases e with e | e <;> rw [e]
    cases r with
    | true => exact hres
    | false => exact absurd hmay (C19_refusals b b1 pms f hv h1 h2 hp hu hf hres)

/-- The opening position and 3-1: nobody on the bar, and 24/20 plays both dice with one chequer. -/
example : cnt (mine exBoard) 24 = 0 ∧ exBoard.rolled = (3, 1) ∧ BothByOne exBoard (diceOf exBoard.rolled) := by
  refine ⟨by decide, by decide, [⟨3, 23, 20, false⟩, ⟨1, 20, 19, false⟩], 23, 19, ⟨?_, ?_⟩, rfl, ⟨rfl, rfl, rfl⟩, by decide, by decide⟩
  · obtain ⟨b1, h1, s1, v1, _⟩ := step_exists (pm := ⟨3, 23, 20, false⟩) exBoard_valid
      (by left; unfold LegalMove; decide)
    have hb1 : b1 = { exBoard with position :=
        ([0,0,0,0,0,5,0,3,0,0,0,0,5,0,0,0,0,0,0,0,1,0,0,1,0], initialRow) } := by
      have : exBoard.makePartialMove ⟨3, 23, 20, false⟩ = .ok { exBoard with position :=
        ([0,0,0,0,0,5,0,3,0,0,0,0,5,0,0,0,0,0,0,0,1,0,0,1,0], initialRow) } := by decide
      rw [this] at h1; cases h1; rfl
    subst hb1
    obtain ⟨b2, _, s2, _⟩ := step_exists (pm := ⟨1, 20, 19, false⟩) v1 (by left; unfold LegalMove; decide)
    exact ⟨b2, .cons s1 (.cons s2 (.nil _))⟩
  · intro d
    by_cases e3 : (3 : Int) = d
    · subst e3; decide
    · by_cases e1 : (1 : Int) = d
      · subst e1; decide
      · simp [e3, e1]

/-- The full statement is false: with a chequer on the bar that can enter the answer is yes. -/
theorem C19_rules_false : ¬ C19_rules_statement := by
  intro h
  have := (h exBar exBar [] (Factory.new exBar) exBar_valid (by decide) (by decide) (.nil _)
    (by intro d; simp) rfl).1 (by rw [C19_bar_always_yes exBar exBar_valid (by decide) (by decide) (by decide)])
  obtain ⟨b2, _, hs, _, _⟩ := step_exists (pm := ⟨3, 24, 21, false⟩) exBar_valid
    (by left; unfold LegalMove; decide)
  have := this.1 [⟨3, 24, 21, false⟩] (playable_one exBar_valid (by decide) hs.legal)
  simp at this

end Bglib
