import Verif.Lemmas.Turn
namespace Bglib
open Spec Factory

/-- No step from a point of the board (the bar left aside). -/
def NoPointStep (b : Board) (a : Avail) : Prop :=
  ∀ n : Int, 0 ≤ n → n ≤ 23 → ¬ ∃ e ∈ diceLeft a, ∃ dest hit, LegalStep (mine b) (theirs b) e n dest hit

theorem anySingle_points {b : Board} (hv : Valid b) (a : Avail) :
    ∃ r, anySingle b a (pyRange 0 24) = .ok r ∧ (r = false ↔ NoPointStep b a) := by
  obtain ⟨r, hr, hi⟩ := anySingle_spec hv a (ns := pyRange 0 24)
    (by intro n hn; rw [mem_pyRange] at hn; omega)
  refine ⟨r, hr, ?_⟩
  constructor
  · intro h n h0 h1 he
    have : r = true := hi.2 ⟨n, by rw [mem_pyRange]; omega, he⟩
    rw [h] at this; simp at this
  · intro h
    cases r with
    | false => rfl
    | true =>
      obtain ⟨n, hn, he⟩ := hi.1 rfl
      rw [mem_pyRange] at hn
      exact absurd he (h n hn.1 (by omega))

theorem noPointStep_of {b : Board} {a : Avail} (h : ¬ CanMove b (diceLeft a)) : NoPointStep b a := by
  rintro n _ _ ⟨e, he, dest, hit, hl⟩
  exact h ⟨e, he, n, dest, hit, hl⟩

theorem canMove_of {b : Board} {a : Avail} (hb : cnt (mine b) 24 = 0) (h : NoPointStep b a) :
    ¬ CanMove b (diceLeft a) := by
  rintro ⟨e, he, src, dest, hit, hl⟩
  have hm := legalStep_movable hl
  have hne : src ≠ 24 := by
    rintro rfl
    exact hm.2.2.1 hb
  exact h src hm.1 (by omega) ⟨e, he, dest, hit, hl⟩

theorem noPointStep_bar {b : Board} {a : Avail} (hb : cnt (mine b) 24 ≠ 0) : NoPointStep b a := by
  rintro n _ _ ⟨e, he, dest, hit, hl⟩
  have := (legalStep_movable hl).2.2.2 hb
  omega

/-- Nothing was played and nothing can be: the last part of the question answers yes. -/
theorem pickupRewound_empty {f : Factory} (hv : Valid f.board) (hm : f.move = []) (hl : f.avail.len ≠ 0)
    (he : f.avail.extra = 0) (hn : NoPointStep f.board f.avail) :
    f.pickupRewound = ⟨f.board, .ok true⟩ := by
  unfold Factory.pickupRewound
  have hnew : Factory.new f.board f.move (some f.avail) = f := by
    unfold Factory.new
    simp only [hl, ne_eq, not_false_eq_true, if_true]
  rw [hnew]
  simp only [hm, List.map_nil, Factory.addAll, ne_eq, not_true, if_false]
  rw [anyDouble_none hv f.avail (by intro n hn; rw [mem_pyRange] at hn; omega)
    (by intro n hn'; rw [mem_pyRange] at hn'; exact hn n hn'.1 (by omega))]
  simp only [not_true, if_false]
  cases hg : f.avail.getMax with
  | none =>
    exfalso
    apply hl
    have hz := Avail.getMax_none hg
    rw [len_diceLeft, he]
    have : diceLeft f.avail = [] := by
      apply List.eq_nil_iff_forall_not_mem.2
      intro d hd
      rw [mem_diceLeft] at hd
      have := hz d; omega
    rw [this]; rfl
  | some die =>
    obtain ⟨hp, _⟩ := Avail.getMax_some hg
    have hd := Avail.num_pos_die hp
    simp only
    obtain ⟨r, hr, hri⟩ := anySingle_points hv (Avail.ofRoll (die, 0))
    have hns : NoPointStep f.board (Avail.ofRoll (die, 0)) := by
      rintro n h0 h1 ⟨e, he, dest, hit, hl⟩
      refine hn n h0 h1 ⟨e, ?_, dest, hit, hl⟩
      have : e = die := by
        rw [mem_diceLeft] at he
        apply Classical.byContradiction; intro hc
        have hz : (Avail.ofRoll (die, 0)).num e = 0 := by
          unfold Avail.ofRoll
          simp only
          rw [if_neg (by omega), if_neg (by omega)]
          have h0 : ∀ (a : Avail) v e, (a.put 0 v).num e = a.num e := by
            intro a v e; simp [Avail.put, Avail.num, Avail.count]
          rw [h0, Avail.num_put _ hd, if_neg hc]
          unfold Avail.num Avail.count; repeat' split
          all_goals rfl
        omega
      rw [this, mem_diceLeft]; exact hp
    rw [hr, hri.2 hns]
    rfl

/-- The cases of the question. -/
theorem pickup_cases {f : Factory} (hv : Valid f.board) (hr : f.board.rolled ≠ (0, 0)) :
    (f.avail.len = 0 → f.isLegalToPickupDice = ⟨f.board, .ok true⟩) ∧
    (f.avail.len ≠ 0 → cnt (mine f.board) 24 = 0 → CanMove f.board (diceLeft f.avail) →
      f.isLegalToPickupDice = ⟨f.board, .ok false⟩) ∧
    (f.avail.len ≠ 0 → cnt (mine f.board) 24 ≠ 0 → ¬ CanMove f.board (diceLeft f.avail) →
      f.isLegalToPickupDice = ⟨f.board, .ok true⟩) ∧
    (f.avail.len ≠ 0 → cnt (mine f.board) 24 = 0 → ¬ CanMove f.board (diceLeft f.avail) →
      f.isLegalToPickupDice =
        if f.board.rolled.1 = f.board.rolled.2 then ⟨f.board, .ok true⟩ else f.pickupRewound) ∧
    (f.avail.len ≠ 0 → cnt (mine f.board) 24 ≠ 0 → CanMove f.board (diceLeft f.avail) →
      f.isLegalToPickupDice =
        if f.board.rolled.1 = f.board.rolled.2 then ⟨f.board, .ok true⟩ else f.pickupRewound) := by
  have hbar := hasChequer_eq hv.shape (n := 24) (by omega) (by omega)
  have hb24 : movable (mine f.board) 24 ↔ cnt (mine f.board) 24 ≠ 0 := by
    unfold movable; simp
  have hd : f.board.isDoubles = .ok (decide (f.board.rolled.1 = f.board.rolled.2)) := by
    unfold Board.isDoubles Board.hasRolled
    rw [if_pos (by simpa using hr)]
  obtain ⟨s, hs, hsi⟩ := anySingle_points hv f.avail
  obtain ⟨q, hq, hqi⟩ := fromSource_ok hv f.avail (src := 24) (by omega) (by omega)
  refine ⟨?_, ?_, ?_, ?_, ?_⟩
  · intro hl
    unfold Factory.isLegalToPickupDice
    simp only
    rw [if_neg hr, if_pos hl]
  · intro hl hb hc
    unfold Factory.isLegalToPickupDice
    simp only [show BAR = 24 from rfl]
    rw [if_neg hr, if_neg hl, hbar]
    simp only [hb24, hb, ne_eq, not_true, decide_false, hs]
    cases s with
    | true => rfl
    | false => exact absurd hc (canMove_of hb (hsi.1 rfl))
  · intro hl hb hc
    unfold Factory.isLegalToPickupDice
    simp only [show BAR = 24 from rfl]
    rw [if_neg hr, if_neg hl, hbar]
    simp only [hb24, hb, ne_eq, not_false_eq_true, decide_true, hq]
    cases q with
    | none => rfl
    | some pm =>
      obtain ⟨e, he, dest, hit, hl⟩ := hqi.1 rfl
      exact absurd ⟨e, he, 24, dest, hit, hl⟩ hc
  · intro hl hb hc
    unfold Factory.isLegalToPickupDice
    simp only [show BAR = 24 from rfl]
    rw [if_neg hr, if_neg hl, hbar]
    simp only [hb24, hb, ne_eq, not_true, decide_false, hs, hsi.2 (noPointStep_of hc), hd]
    by_cases e : f.board.rolled.1 = f.board.rolled.2 <;> simp [e]
  · intro hl hb hc
    unfold Factory.isLegalToPickupDice
    simp only [show BAR = 24 from rfl]
    rw [if_neg hr, if_neg hl, hbar]
    have hsome : q.isSome = true := by
      apply hqi.2
      obtain ⟨e, he, src, dest, hit, hl⟩ := hc
      have := (legalStep_movable hl).2.2.2 hb
      subst this
      exact ⟨e, he, dest, hit, hl⟩
    simp only [hb24, hb, ne_eq, not_false_eq_true, decide_true, hq]
    cases q with
    | none => simp at hsome
    | some pm =>
      simp only [hs, hsi.2 (noPointStep_bar hb), hd]
      by_cases e : f.board.rolled.1 = f.board.rolled.2 <;> simp [e]

/-- If no movement is left, no legal play is longer: with doubles always, else if nothing was played. -/
theorem turnOver_of_stuck {b b1 : Board} {pms : List PartialMove} {left : List Int} (hv : Valid b)
    (hp : PlayTo b pms b1) (hu : UsesDice pms (diceOf b.rolled))
    (hd : ∀ d, left.count d + (pms.map (·.die)).count d = (diceOf b.rolled).count d)
    (hne : left ≠ []) (hc : ¬ CanMove b1 left) (hcase : b.rolled.1 = b.rolled.2 ∨ pms = []) :
    TurnOver b pms.length := by
  rintro q ⟨⟨b2, hq⟩, hqu⟩
  apply Classical.byContradiction
  intro hlen
  rcases hcase with hdbl | hnil
  · have hds : diceOf b.rolled = [b.rolled.1, b.rolled.1, b.rolled.1, b.rolled.1] := by
      unfold diceOf; rw [if_pos hdbl]
    have hmem : ∀ x, x ∈ diceOf b.rolled → x = b.rolled.1 := by
      intro x hx; rw [hds] at hx; simpa using hx
    obtain ⟨src, dest, hit, hl⟩ := exchange (d := b.rolled.1) hv hq hp
      (fun pm h => hmem _ (usesDice_mem hqu pm h)) (fun pm h => hmem _ (usesDice_mem hu pm h)) (by omega)
    obtain ⟨x, hx⟩ := List.exists_mem_of_ne_nil left hne
    have : x = b.rolled.1 := by
      apply hmem
      apply List.count_pos_iff.1
      have := hd x
      have := List.count_pos_iff.2 hx
      omega
    subst this
    exact hc ⟨_, hx, src, dest, hit, hl⟩
  · subst hnil
    cases hp
    cases q with
    | nil => simp at hlen
    | cons pm q =>
      cases hq with
      | cons hs _ =>
        refine hc ⟨pm.die, ?_, pm.src, pm.dest, pm.isHitting, hs.legal⟩
        have h1 := usesDice_mem hqu pm (by simp)
        apply List.count_pos_iff.1
        have h2 := hd pm.die
        have h3 := List.count_pos_iff.2 h1
        simp only [List.map_nil, List.count_nil] at h2
        omega

end Bglib
