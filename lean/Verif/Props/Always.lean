import Verif.Props.Combined
import Verif.Props.Doctree
/-
How far the code is from C45, C46, C48, C49 and C60: not only in the witnesses shown there.
-/
namespace Bglib
open Spec Factory Doc

/-! ### C45 -/

private theorem has_same {b b1 : Board} (hs : Shape b) (hs1 : Shape b1)
    (hz : ∀ i : Nat, i < 25 → (d : Int) < i → (cnt (mine b1) i = 0 ↔ cnt (mine b) i = 0)) (hd : d < 24) (h0 : 0 ≤ d) {n : Int}
    (hn : d < n) : b1.hasChequerToMove n = b.hasChequerToMove n := by
  have hbar := hz 24 (by omega) (by omega)
  by_cases h : n ≤ 24
  · rw [hasChequer_eq hs (by omega) h, hasChequer_eq hs1 (by omega) h]
    have := hz n.toNat (by omega) (by omega)
    have e : movable (mine b1) n ↔ movable (mine b) n := by unfold movable; rw [Ne, this, Ne, hbar]
    simp only [e]
  · have hg : ∀ c : Board, Shape c → c.hasChequerToMove n =
        if cnt (mine c) 24 = 0 then .error .indexError else .ok false := by
      intro c hc
      have hg : pyGet (mine c) n = .error .indexError := by
        unfold pyGet pyIdx
        rw [hc.lm, if_pos (by omega), if_neg (by simp; omega)]
      unfold Board.hasChequerToMove
      rw [rows_eq hc.turn]
      simp only [bind, Except.bind, pure, Except.pure]
      rw [pyGet_cnt hc.lm (by unfold BAR; omega) (by unfold BAR; omega), hg]
      simp only [show BAR.toNat = 24 from rfl]
      by_cases hb : cnt (mine c) 24 = 0
      · simp [hb]
      · simp only [hb, if_false]
        rw [if_neg (by unfold BAR; omega)]
    rw [hg b hs, hg b1 hs1]
    by_cases hb : cnt (mine b) 24 = 0
    · rw [if_pos hb, if_pos (hbar.2 hb)]
    · rw [if_neg hb, if_neg (fun h => hb (hbar.1 h))]

private theorem destLoop_again {b b1 : Board} {dest : Int} (h0 : 0 ≤ dest) (h1 : dest < 24)
    (hh : ∀ n, dest < n → b1.hasChequerToMove n = b.hasChequerToMove n)
    (ho : b1.isOpenToLand dest = .ok true) (hi : b1.isHittingToLand dest = .ok false) :
    ∀ (fuel : Nat) (a : Avail) (pm : PartialMove), destLoop b dest fuel a = .ok (some pm) →
      destLoop b1 dest fuel a = .ok (some { pm with isHitting := false }) := by
  intro fuel
  induction fuel with
  | zero => intro a pm h; simp [destLoop] at h
  | succ fuel ih =>
    intro a pm h
    unfold destLoop at h ⊢
    cases hm : a.getMax with
    | none => rw [hm] at h; simp at h
    | some die =>
      rw [hm] at h
      have hd : 0 < die := by
        unfold Avail.getMax at hm
        repeat' split at hm
        all_goals simp at hm
        all_goals omega
      have hp : isPoint dest = true := by simp [isPoint]; omega
      simp only [show ¬ dest = -1 by omega, if_false, hp, if_true, ho, hi, hh (dest + die) (by omega)] at h ⊢
      split at h
      · simp at h
      · simp at h
      · split at h
        · simp at h
        · rename_i hc
          split at h
          · simp at h
          · simp only [Except.ok.injEq, Option.some.injEq] at h
            subst h
            rfl
        · rename_i hc
          split at h
          · simp at h
          · rename_i hc'
            exact ih _ _ h

/-- **C45**, how far the code is from it: whenever a first movement to a point is found, asking leaves it played on the
board; and if there is another chequer where it began, the same die is suggested for that one too, rolled twice or not. -/
theorem C45_always (b : Board) (dest : Int) (pm : PartialMove) (hv : Valid b) (h0 : 0 ≤ dest)
    (h : fromDest b (Avail.ofRoll b.rolled) dest = .ok (some pm)) :
    ((Factory.new b).makingPoint dest).st ≠ b ∧
    (2 ≤ cnt (mine b) pm.src.toNat →
      ((Factory.new b).makingPoint dest).res = .ok (some [pm, { pm with isHitting := false }])) := by
  obtain ⟨p1, p2, p3⟩ := C16_dest _ _ _ _ hv h
  obtain ⟨b1, hb1, hst, hv1, _⟩ := step_exists hv p3
  obtain ⟨a', ha, _⟩ := Avail.consume_ok ((mem_diceLeft _ _).1 p2)
  have hmv : LegalMove (mine b) (theirs b) pm.die pm.src pm.dest pm.isHitting := by
    rcases p3 with p3 | p3
    · exact p3
    · omega
  obtain ⟨l1, l2, l3, l4, l5, l6, l7, l8, l9⟩ := hmv
  have e : (Factory.new b).makingPoint dest =
      match fromDest b1 (Avail.ofRoll b.rolled) dest with
        | .error e => ⟨b1, .error e⟩
        | .ok none => ⟨b1, .ok none⟩
        | .ok (some pm') => ⟨b1, .ok (some [pm, pm'])⟩ := by
    unfold Factory.makingPoint
    simp only [Factory.new, h, ha, hb1]
    rfl
  refine ⟨?_, fun h2 => ?_⟩
  · have : ((Factory.new b).makingPoint dest).st = b1 := by
      rw [e]; split <;> rfl
    rw [this]
    intro hb
    have := hst.mover pm.src.toNat (by omega)
    rw [hb] at this
    unfold moverAfter at this
    rw [if_pos (by omega), if_neg (by omega)] at this
    omega
  · rw [e]
    have hs := hv.shape
    have hs1 := hv1.shape
    have hsrc : ∀ i : Nat, i < 25 → dest < i → (cnt (mine b1) i = 0 ↔ cnt (mine b) i = 0) := by
      intro i hi hd
      rw [hst.mover i hi]
      unfold moverAfter
      rw [if_neg (c := (i : Int) = pm.dest) (by omega)]
      by_cases hc : (i : Int) = pm.src
      · have : pm.src.toNat = i := by omega
        rw [this] at h2
        rw [if_pos hc]; omega
      · rw [if_neg hc]; omega
    have hpt : isPoint dest = true := by simp [isPoint]; omega
    have hoth : cnt (theirs b1) (23 - dest).toNat ≤ 0 := by
      have := hst.other (23 - dest).toNat (by omega)
      rw [this]
      unfold otherAfter
      rw [if_neg (c := pm.isHitting = true ∧ (23 - dest).toNat = 24) (by omega)]
      rw [← p1]
      have hn := hv.theirs_row.2 (23 - pm.dest).toNat
      by_cases hh : pm.isHitting = true
      · rw [if_pos ⟨hh, by omega⟩]
        have := l9.1 hh
        omega
      · rw [if_neg (fun x => hh x.1)]
        have : ¬ cnt (theirs b) (23 - pm.dest).toNat = 1 := fun x => hh (l9.2 x)
        omega
    have := destLoop_again h0 (by omega) (fun n hn => has_same hs hs1 hsrc (by omega) h0 hn)
      (by rw [isOpen_eq hs1 hpt]; simp; omega) (by rw [isHitting_eq hs1 hpt]; simp; omega) _ _ _ h
    show (match fromDest b1 (Avail.ofRoll b.rolled) dest with
        | .error e => (⟨b1, .error e⟩ : Asked _)
        | .ok none => ⟨b1, .ok none⟩
        | .ok (some pm') => ⟨b1, .ok (some [pm, pm'])⟩).res = _
    unfold fromDest
    rw [this]

example : fromDest exBoard (Avail.ofRoll exBoard.rolled) 4 = .ok (some ⟨3, 7, 4, false⟩) ∧
    cnt (mine exBoard) 7 = 3 := by decide

/-! ### C46 -/

private theorem removeInvertible_length (pm : PartialMove) : ∀ (l l' : List PartialMove),
    removeInvertible pm l = some l' → l'.length + 1 = l.length := by
  intro l
  induction l with
  | nil => intro l' h; simp [removeInvertible] at h
  | cons p l ih =>
    intro l' h
    unfold removeInvertible at h
    split at h
    · simp only [Option.some.injEq] at h; subst h; rfl
    · cases hr : removeInvertible pm l with
      | none => rw [hr] at h; simp at h
      | some x =>
        rw [hr] at h
        simp only [Option.map_some, Option.some.injEq] at h
        subst h
        have := ih x hr
        simp only [List.length_cons]; omega

/-- **C46**, how far the code is from it: every movement that is refused changes the recorded move, as if it had been
made. -/
theorem C46_always (f : Factory) (pm : PartialMove) (f' : Factory) (e : PyErr) (h : f.append pm = ⟨f', some e⟩) :
    f'.move = moveAppend f.move pm ∧ f'.move ≠ f.move := by
  have hm : f'.move = moveAppend f.move pm := by
    unfold Factory.append at h
    simp only at h
    split at h
    · simp only [Step.mk.injEq] at h; rw [← h.1]
    · split at h
      · simp only [Step.mk.injEq] at h; rw [← h.1]
      · simp at h
  refine ⟨hm, fun he => ?_⟩
  rw [hm] at he
  have := congrArg List.length he
  unfold moveAppend at this
  split at this
  · rename_i qs hq
    have := removeInvertible_length _ _ _ hq
    simp only [List.length_reverse] at *
    omega
  · simp at this

example : ∃ f', (Factory.new exBoard).append ⟨6, 23, 17, false⟩ = ⟨f', some .bareRaise⟩ := ⟨_, rfl⟩

/-! ### C48 -/

private theorem undoLoop_board (move : List PartialMove) (dest : Int) (hm : ∀ pm ∈ move, pm.dest < pm.src) :
    ∀ (fuel : Nat) (b : Board) (src : Int) (mv r : List PartialMove), (∀ p ∈ mv, p.src < p.dest) →
      (undoLoop move dest fuel b src mv).res = .ok (some r) →
      ∃ c, r = mv ++ c ∧ c ≠ [] ∧ b.make c.dropLast = ⟨(undoLoop move dest fuel b src mv).st, none⟩ := by
  intro fuel
  induction fuel with
  | zero => intro b src mv r _ h; simp [undoLoop] at h
  | succ fuel ih =>
    intro b src mv r hmv h
    unfold undoLoop at h ⊢
    by_cases hlt : src < dest
    · simp only [hlt, not_true, if_false] at h ⊢
      cases hf : moveFind move src with
      | none => rw [hf] at h; simp at h
      | some pm =>
        have hmem : pm ∈ move := by
          have := List.mem_of_find?_eq_some hf; simpa using this
        have hb : pm.inverse.src < pm.inverse.dest := by simpa [PartialMove.inverse] using hm pm hmem
        simp only [hf, moveAppend_backward hmv hb] at h ⊢
        by_cases he : pm.inverse.dest = dest
        · simp only [he, if_true, Except.ok.injEq, Option.some.injEq] at h ⊢
          exact ⟨[pm.inverse], h.symm, by simp, rfl⟩
        · simp only [he, if_false] at h ⊢
          by_cases hl : pm.inverse.dest < dest
          · simp only [hl, if_true] at h ⊢
            cases hb1 : b.makePartialMove pm.inverse with
            | error e => rw [hb1] at h; simp at h
            | ok b1 =>
              simp only [hb1] at h ⊢
              obtain ⟨c, hc, hn, hst⟩ := ih b1 _ _ r (by
                intro p hp
                simp only [List.mem_append, List.mem_singleton] at hp
                rcases hp with hp | rfl
                · exact hmv p hp
                · exact hb) h
              refine ⟨pm.inverse :: c, by simp [hc], by simp, ?_⟩
              rw [List.dropLast_cons_of_ne_nil hn]
              unfold Board.make
              rw [hb1]
              exact hst
          · simp only [hl, if_false] at h
            simp at h
    · simp [hlt] at h

/-- **C48**, how far the code is from it: asking for a take-back takes back all of its movements but the last. -/
theorem C48_always (f : Factory) (src dest : Int) (r : List PartialMove) (hm : ∀ pm ∈ f.move, pm.dest < pm.src)
    (h : (f.multipleUndoes src dest).res = .ok (some r)) :
    f.board.make r.dropLast = ⟨(f.multipleUndoes src dest).st, none⟩ := by
  obtain ⟨c, hc, _, hs⟩ := undoLoop_board f.move dest hm _ f.board src [] r (by simp) h
  simp only [List.nil_append] at hc
  subst hc
  exact hs

example : (exUndo.multipleUndoes 3 7).res = .ok (some [⟨1, 3, 4, false⟩, ⟨3, 4, 7, false⟩]) := by decide

/-! ### C49 -/

/-- **C49**, exactly: the dice are kept if there are any left, and otherwise replaced by those of the roll. -/
theorem C49_exact (b : Board) (move : List PartialMove) (a : Avail) (h : a.extra = 0) :
    diceLeft (Factory.new b move (some a)).avail =
      if diceLeft a = [] then diceLeft (Avail.ofRoll b.rolled) else diceLeft a := by
  by_cases hd : diceLeft a = []
  · have : a.len = 0 := by
      have := len_diceLeft a
      rw [hd] at this
      simp at this
      omega
    rw [if_pos hd]
    simp [Factory.new, this]
  · rw [if_neg hd, C49_partial b move a hd]

example : diceLeft (Factory.new exBoard [] (some {})).avail = diceLeft (Avail.ofRoll (3, 1)) := by decide

/-! ### C60 -/

/-- **C60**, exactly: an attribute value stays in its quotes if and only if it has no quotation mark. -/
theorem C60_exact (key value : Text) :
    (∃ inner, attributeText key value = key ++ '=' :: '"' :: inner ++ ['"'] ∧ '"' ∉ inner) ↔ '"' ∉ value := by
  constructor
  · rintro ⟨inner, he, hq⟩ hv
    have : inner = escape value := by
      have e : attributeText key value = key ++ '=' :: '"' :: escape value ++ ['"'] := rfl
      rw [e] at he
      simp only [List.append_assoc, List.append_cancel_left_eq, List.cons_append, List.cons.injEq, true_and,
        List.append_cancel_right_eq] at he
      exact he.symm
    subst this
    refine hq (List.mem_flatMap.2 ⟨'"', hv, by decide⟩)
  · intro h
    obtain ⟨inner, h1, h2, _⟩ := C60_partial key value h
    exact ⟨inner, h1, h2⟩

example : '"' ∉ t!"a&b" := by decide

end Bglib
