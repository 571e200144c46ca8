import Verif.Lemmas.Rows
import Verif.Spec.BoardView
namespace Bglib
open Spec

/-- Rows put back into a board for the mover. -/
def setRows (b : Board) (m h : List Int) : Board :=
  { b with position := if b.onAction = 0 then (m, h) else (h, m) }

theorem mine_setRows (b : Board) (m h : List Int) : mine (setRows b m h) = m := by
  unfold mine setRows; split <;> simp_all

theorem theirs_setRows (b : Board) (m h : List Int) : theirs (setRows b m h) = h := by
  unfold theirs setRows; split <;> simp_all

theorem setRows_self (b : Board) : setRows b (mine b) (theirs b) = b := by
  unfold setRows mine theirs
  cases b
  simp only
  split <;> simp_all

theorem setRows_setRows (b : Board) (m h m' h' : List Int) :
    setRows (setRows b m h) m' h' = setRows b m' h' := by
  unfold setRows; simp

theorem turn_setRows {b : Board} {m h : List Int} : (setRows b m h).onAction = b.onAction := rfl

theorem makePartialMove_eq {b : Board} {pm : PartialMove} (ht : b.onAction = 0 ∨ b.onAction = 1)
    (l1 : (mine b).length = 25) (l2 : (theirs b).length = 25) (hp : InBoard pm) :
    b.makePartialMove pm = .ok (setRows b (addOn (addOn (mine b) pm.src (-1)) pm.dest 1)
      (addOn (addOn (theirs b) (23 - hitPoint pm) (hitDelta pm)) 24 (- hitDelta pm))) := by
  unfold Board.makePartialMove
  rcases ht with h | h
  · have e1 : mine b = b.position.1 := by simp [mine, h]
    have e2 : theirs b = b.position.2 := by simp [theirs, h]
    rw [if_pos (by simpa [YOU] using h), ← e1, ← e2, moveRows_eq hp l1 l2]
    simp [bind, Except.bind, pure, Except.pure, setRows, h]
  · have e1 : mine b = b.position.2 := by simp [mine, h]
    have e2 : theirs b = b.position.1 := by simp [theirs, h]
    rw [if_neg (by simp [YOU, h]), if_pos (by simpa [HIM] using h), ← e1, ← e2, moveRows_eq hp l1 l2]
    simp [bind, Except.bind, pure, Except.pure, setRows, h]

theorem LegalStep.inBoard {m t : List Int} {pm : PartialMove}
    (h : LegalStep m t pm.die pm.src pm.dest pm.isHitting) :
    InBoard pm ∧ pm.isUndo = false ∧ pm.dest < pm.src ∧ 0 ≤ pm.src := by
  unfold InBoard PartialMove.isUndo
  rcases h with h | h
  · obtain ⟨a, b, c, d, e, _⟩ := h
    refine ⟨by omega, by simp; omega, by omega, by omega⟩
  · obtain ⟨a, b, c, d, e, f, _⟩ := h
    refine ⟨by omega, by simp; omega, by omega, by omega⟩

theorem row_ext {r s : List Int} (hr : r.length = 25) (hs : s.length = 25)
    (h : ∀ i < 25, cnt r i = cnt s i) : r = s := by
  apply List.ext_getElem (by omega)
  intro i h1 h2
  have := h i (by omega)
  simpa [cnt, List.getD_eq_getElem?_getD, h1, h2] using this

theorem cnt_out {r : List Int} (hr : r.length = 25) {i : Nat} (h : 25 ≤ i) : cnt r i = 0 := by
  simp [cnt, List.getD_eq_getElem?_getD, List.getElem?_eq_none (by omega : r.length ≤ i)]

theorem step_exists {b : Board} {pm : PartialMove} (hv : Valid b)
    (hl : LegalStep (mine b) (theirs b) pm.die pm.src pm.dest pm.isHitting) :
    ∃ b', b.makePartialMove pm = .ok b' ∧ StepTo b pm b' ∧ Valid b' ∧
      total (mine b') = total (mine b) - (if pm.dest = -1 then 1 else 0) ∧
      total (theirs b') = total (theirs b) := by
  obtain ⟨hin, hu, hlt, hs⟩ := LegalStep.inBoard hl
  have hin' := hin
  obtain ⟨i1, i2, i3, i4, i5⟩ := hin'
  obtain ⟨ht, ⟨lm, nm⟩, ⟨lt, nt⟩⟩ := hv
  have hp : hitPoint pm = pm.dest := by simp [hitPoint, hu]
  have hd : hitDelta pm = if pm.isHitting then -1 else 0 := by simp [hitDelta, hu]
  have hb := makePartialMove_eq ht lm lt hin
  rw [hp, hd] at hb
  refine ⟨_, hb, ?_, ?_, ?_, ?_⟩
  · refine ⟨hl, ?_, ?_, ?_, ?_, rfl⟩
    · simp [mine_setRows, lm]
    · simp [theirs_setRows, lt]
    · intro i hi
      rw [mine_setRows, cnt_addOn _ _ (by simp [lm]; omega), cnt_addOn _ _ (by simp [lm]; omega)]
      unfold moverAfter; split <;> split <;> omega
    · intro i hi
      rw [theirs_setRows, cnt_addOn _ _ (by simp [lt]), cnt_addOn _ _ (by simp [lt]; omega)]
      unfold otherAfter
      by_cases h : pm.isHitting
      · simp only [h, if_true, true_and]; split <;> split <;> split <;> omega
      · simp [h]
  · refine ⟨by simpa [turn_setRows] using ht, ⟨by simp [mine_setRows, lm], ?_⟩,
      ⟨by simp [theirs_setRows, lt], ?_⟩⟩
    · intro i
      rw [mine_setRows, cnt_addOn _ _ (by simp [lm]; omega), cnt_addOn _ _ (by simp [lm]; omega)]
      have := nm i
      have h1 : 1 ≤ cnt (mine b) pm.src.toNat := by
        rcases hl with h | h
        · exact h.2.2.2.2.2.1
        · exact h.2.2.2.2.2.2.1
      by_cases e : (i : Int) = pm.src
      · have : pm.src.toNat = i := by omega
        rw [this] at h1
        simp only [e, if_true]; split <;> omega
      · simp only [e, if_false]; split <;> omega
    · intro i
      rw [theirs_setRows, cnt_addOn _ _ (by simp [lt]), cnt_addOn _ _ (by simp [lt]; omega)]
      have := nt i
      by_cases h : pm.isHitting
      · simp only [h, if_true]
        rcases hl with hl | hl
        · have h1 := (hl.2.2.2.2.2.2.2.2).1 h
          by_cases e : (i : Int) = 23 - pm.dest
          · have : (23 - pm.dest).toNat = i := by omega
            rw [this] at h1
            simp only [e, if_true]; split <;> omega
          · simp only [e, if_false]; split <;> omega
        · simp [hl.2.1] at h
      · simp [h, this]
  · rw [mine_setRows, total_addOn _ (by simp [lm]; omega), total_addOn _ (by simp [lm]; omega)]
    split <;> split <;> split <;> omega
  · rw [theirs_setRows, total_addOn _ (by simp [lt]), total_addOn _ (by simp [lt]; omega)]
    rw [if_pos (by omega)]
    by_cases h : pm.isHitting <;> simp [h]
    omega

theorem step_unique {b b1 b2 : Board} {pm : PartialMove}
    (h1 : StepTo b pm b1) (h2 : StepTo b pm b2) : b1 = b2 := by
  have e1 : mine b1 = mine b2 := row_ext h1.len1 h2.len1
    (fun i hi => by rw [h1.mover i hi, h2.mover i hi])
  have e2 : theirs b1 = theirs b2 := row_ext h1.len2 h2.len2
    (fun i hi => by rw [h1.other i hi, h2.other i hi])
  have a1 : b1.onAction = b.onAction := by rw [h1.frame]
  have a2 : b2.onAction = b.onAction := by rw [h2.frame]
  have : b1.position = b2.position := by
    unfold mine at e1
    unfold theirs at e2
    rw [a1, a2] at e1 e2
    split at e1 <;> simp_all [Prod.ext_iff]
  rw [h1.frame, h2.frame, this]

/-- Good shape for `makePartialMove_eq`. -/
structure Shape (b : Board) : Prop where
  turn : b.onAction = 0 ∨ b.onAction = 1
  lm : (mine b).length = 25
  lt : (theirs b).length = 25

/-- The board after a movement inside the board. -/
def mv (b : Board) (pm : PartialMove) : Board :=
  setRows b (addOn (addOn (mine b) pm.src (-1)) pm.dest 1)
      (addOn (addOn (theirs b) (23 - hitPoint pm) (hitDelta pm)) 24 (- hitDelta pm))

theorem Shape.mv {b : Board} (h : Shape b) (pm : PartialMove) : Shape (mv b pm) :=
  ⟨h.turn, by simp [Bglib.mv, mine_setRows, h.lm], by simp [Bglib.mv, theirs_setRows, h.lt]⟩

theorem make_eq {b : Board} (h : Shape b) {pms : List PartialMove} (hp : ∀ pm ∈ pms, InBoard pm) :
    b.make pms = ⟨pms.foldl mv b, none⟩ := by
  induction pms generalizing b with
  | nil => rfl
  | cons pm pms ih =>
    have := makePartialMove_eq h.turn h.lm h.lt (hp pm (by simp))
    unfold Board.make
    rw [this]
    exact ih (h.mv pm) (fun q hq => hp q (by simp [hq]))

theorem mv_comm (b : Board) (p q : PartialMove) : mv (mv b p) q = mv (mv b q) p := by
  unfold mv
  simp only [mine_setRows, theirs_setRows, setRows_setRows]
  congr 1
  · rw [addOn_comm _ p.dest q.src, addOn_comm _ p.dest q.dest, addOn_comm _ p.src q.src,
      addOn_comm _ p.src q.dest]
  · rw [addOn_comm _ 24 (23 - hitPoint q), addOn_comm _ 24 24,
      addOn_comm _ (23 - hitPoint p) (23 - hitPoint q), addOn_comm _ (23 - hitPoint p) 24]

theorem mv_inverse (b : Board) (pm : PartialMove) (h : pm.src ≠ pm.dest) :
    mv (mv b pm) pm.inverse = b := by
  unfold mv
  simp only [mine_setRows, theirs_setRows, setRows_setRows, PartialMove.inverse]
  conv => rhs; rw [← setRows_self b]
  congr 1
  · rw [addOn_cancel' _ pm.dest (by omega), addOn_cancel' _ pm.src (by omega)]
  · have u : (⟨pm.die, pm.dest, pm.src, pm.isHitting⟩ : PartialMove).isUndo = !pm.isUndo := by
      by_cases c : pm.dest > pm.src
      · simp [PartialMove.isUndo, c]; omega
      · simp [PartialMove.isUndo, c]; omega
    have e : hitPoint ⟨pm.die, pm.dest, pm.src, pm.isHitting⟩ = hitPoint pm := by
      unfold hitPoint; rw [u]; cases pm.isUndo <;> simp
    have d : hitDelta ⟨pm.die, pm.dest, pm.src, pm.isHitting⟩ = - hitDelta pm := by
      unfold hitDelta; rw [u]; cases pm.isUndo <;> cases pm.isHitting <;> simp
    rw [e, d, addOn_comm _ 24 (23 - hitPoint pm), addOn_cancel' _ (23 - hitPoint pm) (by omega),
      addOn_cancel' _ 24 (by omega)]

theorem foldl_mv_comm (b : Board) (p : PartialMove) (pms : List PartialMove) :
    mv (pms.foldl mv b) p = pms.foldl mv (mv b p) := by
  induction pms generalizing b with
  | nil => rfl
  | cons q qs ih => simp only [List.foldl_cons]; rw [ih, mv_comm]

theorem foldl_mv_perm {p q : List PartialMove} (h : p.Perm q) (b : Board) :
    p.foldl mv b = q.foldl mv b := by
  induction h generalizing b with
  | nil => rfl
  | cons x _ ih => exact ih _
  | swap x y l => simp only [List.foldl_cons, mv_comm]
  | trans _ _ i1 i2 => rw [i1, i2]

theorem foldl_mv_inverse (pms : List PartialMove) (b : Board) (h : ∀ pm ∈ pms, pm.src ≠ pm.dest) :
    (pms.map PartialMove.inverse).foldl mv (pms.foldl mv b) = b := by
  induction pms generalizing b with
  | nil => rfl
  | cons p ps ih =>
    simp only [List.map_cons, List.foldl_cons]
    rw [foldl_mv_comm, mv_inverse _ _ (h p (by simp))]
    exact ih b (fun q hq => h q (by simp [hq]))

theorem undo_play {b : Board} {pms undos : List PartialMove}
    (ht : b.onAction = 0 ∨ b.onAction = 1)
    (l1 : b.position.1.length = 25) (l2 : b.position.2.length = 25)
    (hp : ∀ pm ∈ pms, -1 ≤ pm.dest ∧ pm.dest < pm.src ∧ pm.src ≤ 24)
    (hu : undos.Perm (pms.map fun pm => ⟨pm.die, pm.dest, pm.src, pm.isHitting⟩)) :
    (b.make pms).err = none ∧ (b.make pms).st.make undos = ⟨b, none⟩ := by
  have hs : Shape b := ⟨ht, by unfold mine; split <;> assumption, by unfold theirs; split <;> assumption⟩
  have hin : ∀ pm ∈ pms, InBoard pm := by
    intro pm h; have := hp pm h; unfold InBoard; omega
  have hf : ∀ (l : List PartialMove) (b : Board), Shape b → Shape (l.foldl mv b) := by
    intro l; induction l with
    | nil => intro b h; exact h
    | cons p ps ih => intro b h; exact ih _ (h.mv p)
  rw [make_eq hs hin]
  refine ⟨rfl, ?_⟩
  rw [make_eq (hf _ _ hs)]
  · rw [foldl_mv_perm hu]
    have := foldl_mv_inverse pms b (fun pm h => by have := hp pm h; omega)
    simp only [Step.mk.injEq, and_true]
    exact this
  · intro u hu'
    have := hu.mem_iff.1 hu'
    simp only [List.mem_map] at this
    obtain ⟨pm, h, rfl⟩ := this
    have := hp pm h; unfold InBoard; simp only; omega

end Bglib
