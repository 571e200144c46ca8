import Verif.Lemmas.MultiMove
namespace Bglib
open Spec Factory

theorem removeInvertible_some {pm : PartialMove} {l qs : List PartialMove}
    (h : removeInvertible pm l = some qs) :
    ∃ p l1 l2, l = l1 ++ p :: l2 ∧ qs = l1 ++ l2 ∧ pm = p.inverse := by
  induction l generalizing qs with
  | nil => simp [removeInvertible] at h
  | cons q l ih =>
    unfold removeInvertible at h
    split at h
    · rename_i hi
      simp only [Option.some.injEq] at h
      refine ⟨q, [], l, rfl, h.symm, ?_⟩
      simp only [PartialMove.areInvertible, Bool.and_eq_true, decide_eq_true_eq] at hi
      obtain ⟨⟨⟨h1, h2⟩, h3⟩, h4⟩ := hi
      cases pm; simp_all [PartialMove.inverse]
    · simp only [Option.map_eq_some_iff] at h
      obtain ⟨r, hr, rfl⟩ := h
      obtain ⟨p, l1, l2, e1, e2, e3⟩ := ih hr
      exact ⟨p, q :: l1, l2, by rw [e1]; rfl, by rw [e2]; rfl, e3⟩

/-- `Move.append` either records the movement or drops an earlier one it takes back. -/
theorem moveAppend_cases (ms : List PartialMove) (pm : PartialMove) :
    moveAppend ms pm = ms ++ [pm] ∨
      ∃ p, ms.Perm (p :: moveAppend ms pm) ∧ pm = p.inverse := by
  unfold moveAppend
  cases h : removeInvertible pm ms.reverse with
  | none => exact Or.inl rfl
  | some qs =>
    obtain ⟨p, l1, l2, e1, e2, e3⟩ := removeInvertible_some h
    refine Or.inr ⟨p, ?_, e3⟩
    have : ms = l2.reverse ++ p :: l1.reverse := by
      have := congrArg List.reverse e1
      simpa using this
    simp only [e2, List.reverse_append]
    rw [this]
    exact List.perm_middle

theorem spent_perm {p q : List PartialMove} (h : p.Perm q) : (spent p).Perm (spent q) :=
  (h.filter _).map _

theorem givenBack_perm {p q : List PartialMove} (h : p.Perm q) : (givenBack p).Perm (givenBack q) :=
  (h.filter _).map _

/-- Bookkeeping of a factory that started on board `b0`. -/
structure Book (b0 : Board) (f : Factory) : Prop where
  inb : ∀ pm ∈ f.move, InBoard pm
  board : f.board = f.move.foldl mv b0
  dice : ∀ d, (spent f.move).count d + f.avail.num d =
    (diceOf b0.rolled).count d + (givenBack f.move).count d

theorem shape_foldl {b : Board} (h : Shape b) (l : List PartialMove) : Shape (l.foldl mv b) := by
  induction l generalizing b with
  | nil => exact h
  | cons p ps ih => exact ih (h.mv p)

theorem num_ofRoll {r : Int × Int} (h1 : 1 ≤ r.1 ∧ r.1 ≤ 6) (h2 : 1 ≤ r.2 ∧ r.2 ≤ 6) (d : Int) :
    (Avail.ofRoll r).num d = (diceOf r).count d := by
  unfold Avail.ofRoll diceOf
  have hz : ∀ d, ({} : Avail).num d = 0 := by
    intro d; unfold Avail.num Avail.count; repeat' split
    all_goals rfl
  rw [if_neg (by omega)]
  split
  · rw [Avail.num_put _ h1, hz]
    by_cases h : d = r.1
    · simp [h]
    · have : ¬ r.1 = d := fun e => h e.symm
      simp [h, List.count_cons, this]
  · rename_i hne
    rw [Avail.num_put _ h2, Avail.num_put _ h1, hz]
    by_cases h : d = r.2
    · subst h; simp [List.count_cons, hne]
    · have e2 : ¬ r.2 = d := fun e => h e.symm
      by_cases h' : d = r.1
      · subst h'; simp [h, List.count_cons, e2]
      · have e1 : ¬ r.1 = d := fun e => h' e.symm
        simp [h, h', List.count_cons, e1, e2]

theorem book_append {b0 : Board} (hs : Shape b0) {f f' : Factory} (hb : Book b0 f) {pm : PartialMove}
    (hin : InBoard pm) (h : f.append pm = ⟨f', none⟩) : Book b0 f' := by
  unfold Factory.append at h
  simp only at h
  -- dice
  have hav : ∃ a, (if pm.isUndo then f.avail.add pm.die else f.avail.consume pm.die) = .ok a ∧
      ∀ d, (a.num d : Int) = f.avail.num d +
        (if d = pm.die then (if pm.isUndo then 1 else -1) else 0) := by
    cases hu : pm.isUndo with
    | true =>
      simp only [hu, if_true] at h ⊢
      cases ha : f.avail.add pm.die with
      | error e => rw [ha] at h; simp at h
      | ok a =>
        have hd : 1 ≤ pm.die ∧ pm.die ≤ 6 := by
          unfold Avail.add at ha
          split at ha
          · rename_i n hn
            unfold Avail.count at hn
            repeat' split at hn
            all_goals first | omega | simp at hn
          · cases ha
        obtain ⟨a', ha', _, hn⟩ := Avail.add_ok (a := f.avail) hd
        rw [ha] at ha'
        simp only [Except.ok.injEq] at ha'
        subst ha'
        refine ⟨a, rfl, ?_⟩
        intro d; rw [hn d]; split <;> simp
    | false =>
      simp only [hu, Bool.false_eq_true, if_false] at h ⊢
      cases ha : f.avail.consume pm.die with
      | error e => rw [ha] at h; simp at h
      | ok a =>
        have hp := Avail.consume_inv ha
        obtain ⟨a', ha', _, hn⟩ := Avail.consume_ok hp
        rw [ha] at ha'
        simp only [Except.ok.injEq] at ha'
        subst ha'
        refine ⟨a, rfl, ?_⟩
        intro d
        have := hn d
        split
        · rename_i hd; subst hd; simp at this; omega
        · rename_i hd; simp only [hd, if_false] at this; omega
  obtain ⟨a, ha, hn⟩ := hav
  rw [ha] at h
  simp only at h
  have hsf : Shape f.board := by rw [hb.board]; exact shape_foldl hs _
  rw [makePartialMove_mv hsf hin] at h
  simp only [Step.mk.injEq, and_true] at h
  subst h
  have hne := hin.2.2.2.2
  have hundo : pm.isUndo = decide (pm.src < pm.dest) := rfl
  rcases moveAppend_cases f.move pm with hm | ⟨p, hperm, hpi⟩
  · refine ⟨?_, ?_, ?_⟩
    · intro q hq
      simp only [hm, List.mem_append, List.mem_singleton] at hq
      rcases hq with hq | rfl
      · exact hb.inb q hq
      · exact hin
    · simp only [hm, List.foldl_append, List.foldl_cons, List.foldl_nil, hb.board]
    · intro d
      have h1 := hb.dice d
      have h2 := hn d
      simp only [hm]
      rw [hundo] at h2
      by_cases hlt : pm.src < pm.dest
      · have hg : ¬ pm.dest < pm.src := by omega
        have e1 : spent (f.move ++ [pm]) = spent f.move := by simp [spent, hg]
        have e2 : givenBack (f.move ++ [pm]) = givenBack f.move ++ [pm.die] := by simp [givenBack, hlt]
        rw [e1, e2, List.count_append]
        simp only [hlt, decide_true, if_true] at h2
        by_cases hd : d = pm.die
        · subst hd; simp at h2 ⊢; omega
        · have : ¬ pm.die = d := fun e => hd e.symm
          simp [hd, this, List.count_cons] at h2 ⊢; omega
      · have hg : pm.dest < pm.src := by omega
        have e1 : spent (f.move ++ [pm]) = spent f.move ++ [pm.die] := by simp [spent, hg]
        have e2 : givenBack (f.move ++ [pm]) = givenBack f.move := by simp [givenBack, hlt]
        rw [e1, e2, List.count_append]
        simp only [hlt, decide_false] at h2
        by_cases hd : d = pm.die
        · subst hd; simp at h2 ⊢; omega
        · have : ¬ pm.die = d := fun e => hd e.symm
          simp [hd, this, List.count_cons] at h2 ⊢; omega
  · refine ⟨?_, ?_, ?_⟩
    · intro q hq
      exact hb.inb q (hperm.mem_iff.2 (by simp only at hq; simp [hq]))
    · simp only [hb.board]
      rw [foldl_mv_perm hperm b0, List.foldl_cons, ← foldl_mv_comm, hpi]
      refine mv_inverse _ p ?_
      rw [hpi] at hne
      simp only [PartialMove.inverse] at hne
      omega
    · intro d
      have h1 := hb.dice d
      rw [(spent_perm hperm).count_eq, (givenBack_perm hperm).count_eq] at h1
      have h2 := hn d
      rw [hundo, hpi] at h2
      simp only [PartialMove.inverse] at h2
      rw [hpi] at hne
      simp only [PartialMove.inverse] at hne
      by_cases hlt : p.dest < p.src
      · have hg : ¬ p.src < p.dest := by omega
        have e1 : spent (p :: moveAppend f.move pm) = p.die :: spent (moveAppend f.move pm) := by
          simp [spent, hlt]
        have e2 : givenBack (p :: moveAppend f.move pm) = givenBack (moveAppend f.move pm) := by
          simp [givenBack, hg]
        rw [e1, e2, List.count_cons] at h1
        simp only [hlt, decide_true, if_true] at h2
        simp only
        by_cases hd : d = p.die
        · subst hd; simp at h1 h2 ⊢; omega
        · have : ¬ p.die = d := fun e => hd e.symm
          simp [hd, this] at h1 h2 ⊢; omega
      · have hg : p.src < p.dest := by omega
        have e1 : spent (p :: moveAppend f.move pm) = spent (moveAppend f.move pm) := by
          simp [spent, hlt]
        have e2 : givenBack (p :: moveAppend f.move pm) = p.die :: givenBack (moveAppend f.move pm) := by
          simp [givenBack, hg]
        rw [e1, e2, List.count_cons] at h1
        simp only [hlt, decide_false] at h2
        simp only
        by_cases hd : d = p.die
        · subst hd; simp at h1 h2 ⊢; omega
        · have : ¬ p.die = d := fun e => hd e.symm
          simp [hd, this] at h1 h2 ⊢; omega

theorem book_addAll {b0 : Board} (hs : Shape b0) {f : Factory} (hb : Book b0 f)
    {pms : List PartialMove} (hin : ∀ pm ∈ pms, InBoard pm) (h : (f.addAll pms).err = none) :
    Book b0 (f.addAll pms).st := by
  induction pms generalizing f with
  | nil => exact hb
  | cons pm pms ih =>
    unfold Factory.addAll at h ⊢
    cases hr : f.append pm with
    | mk f' err =>
      cases err with
      | some e => rw [hr] at h; simp at h
      | none =>
        rw [hr] at h
        simp only at h ⊢
        exact ih (book_append hs hb (hin pm (by simp)) hr) (fun q hq => hin q (by simp [hq])) h

end Bglib
