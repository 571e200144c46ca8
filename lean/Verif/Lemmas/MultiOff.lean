import Verif.Lemmas.MultiComplete
import Verif.Spec.CombinedOff
namespace Bglib
open Spec Factory

/-- Two different dice, off the board: found unless overlooked. -/
theorem multi_two_off {b b' : Board} {c : List PartialMove} {src D d : Int} {a : Avail} (hv : Valid b)
    (hp : PlayTo b c b') (hc : c ≠ []) (hlead : Leads c src (-1)) (hDd : d < D)
    (hD : a.num D = 1) (hd : a.num d = 1) (hz : ∀ e, e ≠ D → e ≠ d → a.num e = 0)
    (hu : UsesDice c (diceLeft a)) (hno : ¬ OffOverlooked (mine b) (theirs b) D d src) :
    ∃ r, (multiplePms b a src (-1)).res = .ok (some r) := by
  unfold multiplePms
  have hu' : ∀ e, (c.map (·.die)).count e ≤ a.num e := by
    intro e; have := hu e; rwa [count_diceLeft] at this
  have hdd : ∀ pm ∈ c, pm.die = D ∨ pm.die = d := by
    intro pm hm
    apply Classical.byContradiction; intro hcc
    have := hz pm.die (fun e => hcc (Or.inl e)) (fun e => hcc (Or.inr e))
    have := hu' pm.die
    have : 0 < (c.map (·.die)).count pm.die := List.count_pos_iff.2 (List.mem_map_of_mem hm)
    omega
  cases hp with
  | nil => exact absurd rfl hc
  | @cons _ b1 _ p1 rest hs1 hrest =>
  obtain ⟨hsrc, hlead'⟩ := hlead
  have hlt := (Leads.le (.cons hs1 hrest) ⟨hsrc, hlead'⟩).2 (by simp)
  have hmv := legalStep_movable hs1.legal
  rw [hsrc] at hmv
  have hp1d := hdd p1 (by simp)
  have hp1num : 0 < a.num p1.die := by rcases hp1d with h | h <;> rw [h] <;> omega
  have hl1 := hs1.legal
  rw [hsrc] at hl1
  obtain ⟨r, hr, hri⟩ := fromSource_ok hv a (src := src) hmv.1 hmv.2.1
  have hsome : r.isSome = true := hri.2 ⟨p1.die, (mem_diceLeft a _).2 hp1num, p1.dest, p1.isHitting, hl1⟩
  cases r with
  | none => simp at hsome
  | some pm =>
  obtain ⟨_, _, e1, e2, e3, e4⟩ := fromSource_none_or hv a src pm hr
  have hpmd : pm.die = D ∨ pm.die = d := by
    apply Classical.byContradiction; intro hcc
    have := hz pm.die (fun e => hcc (Or.inl e)) (fun e => hcc (Or.inr e))
    omega
  obtain ⟨a', ha', hal, hna⟩ := Avail.consume_ok e2
  obtain ⟨c1, hc1, hst, hv1, _⟩ := step_exists hv e3
  have hDnum : ∀ e, 0 < a.num e → 1 ≤ e ∧ e ≤ 6 := fun e h => Avail.num_pos_die h
  have lD := hDnum D (by omega)
  have ld := hDnum d (by omega)
  -- borne off at once
  by_cases hoff : pm.dest = -1
  · unfold multiLoop
    rw [if_neg (by omega), hr]
    simp only
    rw [if_neg (by simp [e1]), if_pos hoff]
    exact ⟨_, rfl⟩
  by_cases hsame : pm.die = p1.die
  · -- the search starts as the chain does
    have hpm : pm = p1 := pm_eq (by rw [e1, hsrc]) hsame e3 hs1.legal
    subst hpm
    have hrn : rest ≠ [] := by
      rintro rfl
      exact hoff hlead'
    obtain rfl := step_unique hs1 hst
    refine multiLoop_further hv (by omega) (by intro p hp; simp at hp) hr hc1 ha'
      ((Leads.le hrest hlead').2 hrn) ?_
    have hplt := (LegalStep.inBoard e3).2.2.1
    have hother : ∃ o, o ≠ pm.die ∧ (∀ q ∈ rest, q.die = o) ∧ a'.num o = 1 ∧ (∀ e, e ≠ o → a'.num e = 0) := by
      have hcount := hu' pm.die
      simp only [List.map_cons, List.count_cons_self] at hcount
      have hno : ∀ q ∈ rest, q.die ≠ pm.die := by
        intro q hq hqe
        have : 0 < (rest.map (·.die)).count pm.die := by
          rw [← hqe]; exact List.count_pos_iff.2 (List.mem_map_of_mem hq)
        rcases hpmd with h | h <;> rw [h] at this hcount <;> omega
      rcases hpmd with h | h
      · refine ⟨d, by omega, ?_, ?_, ?_⟩
        · intro q hq
          rcases hdd q (by simp [hq]) with h' | h'
          · exact absurd (by rw [h', h]) (hno q hq)
          · exact h'
        · have := hna d; rw [if_neg (by omega)] at this; omega
        · intro e he
          have h5 := hna e
          by_cases heD : e = D
          · subst heD; rw [h] at h5; simp at h5; omega
          · have := hz e heD he; omega
      · refine ⟨D, by omega, ?_, ?_, ?_⟩
        · intro q hq
          rcases hdd q (by simp [hq]) with h' | h'
          · exact h'
          · exact absurd (by rw [h', h]) (hno q hq)
        · have := hna D; rw [if_neg (by omega)] at this; omega
        · intro e he
          have h5 := hna e
          by_cases heD : e = d
          · subst heD; rw [h] at h5; simp at h5; omega
          · have := hz e he heD; omega
    obtain ⟨o, ho, hall, ho1, hoz⟩ := hother
    have hlen : rest.length ≤ 1 := by
      have h5 := hu' o
      have h6 : (rest.map (·.die)).count o = rest.length := by
        rw [List.count_eq_length.2]
        · simp
        · intro x hx
          simp only [List.mem_map] at hx
          obtain ⟨q, hq, rfl⟩ := hx
          exact (hall q hq).symm
      simp only [List.map_cons, List.count_cons, h6] at h5
      have h7 := hna o
      rw [if_neg ho] at h7
      omega
    exact multiLoop_single (d := o) hrest pm.dest a' _ _ hv1 (by omega)
      (by rw [moveAppend_forward (by intro p hp; simp at hp) hplt]; intro p hp; simp at hp; subst hp; exact hplt)
      hrn hlead' hall (by omega) hoz
  · -- the search prefers the larger die, the chain starts with the smaller
    have hpD : pm.die = D ∧ p1.die = d := by
      rcases hpmd with h | h <;> rcases hp1d with h' | h'
      · exact absurd (by rw [h, h']) hsame
      · exact ⟨h, h'⟩
      · exfalso
        exact e4 D (by omega) (by rw [h]; exact hDd) p1.dest p1.isHitting (by rwa [h'] at hl1)
      · exact absurd (by rw [h, h']) hsame
    obtain ⟨hpmD, hp1d'⟩ := hpD
    have a'd : a'.num d = 1 := by have := hna d; rw [if_neg (by omega)] at this; omega
    have a'z : ∀ e, e ≠ d → a'.num e = 0 := by
      intro e he
      have h5 := hna e
      by_cases heD : e = D
      · subst heD; rw [hpmD] at h5; simp at h5; omega
      · have := hz e heD he; omega
    have l3 := e3
    rw [hpmD, e1] at l3
    have mD : LegalMove (mine b) (theirs b) D src pm.dest pm.isHitting := by
      rcases l3 with h | h
      · exact h
      · exact absurd h.1 hoff
    have ndest : pm.dest = src - D := mD.2.2.2.2.1
    have npos : 0 ≤ pm.dest := mD.2.2.1
    -- the smaller die does not bear off alone
    have m1 : LegalMove (mine b) (theirs b) d src p1.dest p1.isHitting := by
      rw [hp1d'] at hl1
      rcases hl1 with h | h
      · exact h
      · exfalso
        have h3 := h.2.2
        obtain ⟨_, _, _, _, _, _, h4⟩ := h3
        omega
    have hrn : rest ≠ [] := by
      rintro rfl
      have : p1.dest = -1 := hlead'
      have := m1.2.2.1
      omega
    cases hrest with
    | nil => exact absurd rfl hrn
    | @cons _ b2 _ p2 rest2 hs2 hrest2 =>
    have hp2 : p2.die = D := by
      rcases hdd p2 (by simp) with h | h
      · exact h
      · exfalso
        have h5 := hu' d
        simp only [List.map_cons, hp1d', h, List.count_cons_self] at h5
        omega
    have hr2 : rest2 = [] := by
      cases rest2 with
      | nil => rfl
      | cons q _ =>
        exfalso
        have h5 := hu' D
        have h6 := hu' d
        simp only [List.map_cons, List.count_cons, hp1d', hp2] at h5 h6
        rcases hdd q (by simp) with h | h <;> simp [h] at h5 h6 <;> omega
    subst hr2
    obtain ⟨hsrc2, hdest2⟩ := hlead'
    have hdest2 : p2.dest = -1 := hdest2
    have l2 := hs2.legal
    rw [hp2, hsrc2, hdest2] at l2
    have o2 : LegalBearoff (mine b1) D p1.dest := by
      rcases l2 with h | h
      · exact absurd h.2.2.1 (by omega)
      · exact h.2.2
    obtain ⟨_, _, q1, q2, q3, q4, q5, q6, q7⟩ := m1
    obtain ⟨_, _, r1, r2, r3, r4, r5⟩ := o2
    refine multiLoop_further hv (by omega) (by intro p hp; simp at hp) hr hc1 ha' (by omega) ?_
    have hplt := (LegalStep.inBoard e3).2.2.1
    have after : ∀ i < 25, cnt (mine c1) i = moverAfter (mine b) src (src - D) i := by
      intro i hi
      have := hst.mover i hi
      rw [e1, ndest] at this
      exact this
    have home : allHome (mine c1) := by
      intro i hi
      by_cases h25 : i < 25
      · have h1 := hs1.mover i h25
        have h2 := after i h25
        have h3 := r4 i hi
        unfold moverAfter at h1 h2
        rw [hsrc, if_neg (by omega : ¬ (i : Int) = p1.dest)] at h1
        rw [if_neg (by omega : ¬ (i : Int) = src - D)] at h2
        omega
      · exact cnt_out hv1.mine_row.1 (by omega)
    have hcq : 1 ≤ cnt (mine c1) (pm.dest).toNat := by
      have h2 := after pm.dest.toNat (by omega)
      unfold moverAfter at h2
      rw [if_neg (by omega), if_pos (by omega)] at h2
      have := hv.mine_row.2 pm.dest.toNat
      omega
    have hlegal2 : LegalStep (mine c1) (theirs c1) d pm.dest (-1) false := by
      refine Or.inr ⟨rfl, rfl, ld.1, ld.2, npos, by omega, hcq, home, ?_⟩
      by_cases hx : src + 1 < D + d
      · refine Or.inr ⟨by omega, fun i hi => ?_⟩
        by_cases h25 : i < 25
        · apply Classical.byContradiction
          intro hne
          refine hno ⟨⟨pm.isHitting, ndest ▸ mD⟩, hx, i, by omega, h25, ?_⟩
          rw [← after i h25]
          have := hv1.mine_row.2 i
          omega
        · exact cnt_out hv1.mine_row.1 (by omega)
      · exact Or.inl (by omega)
    obtain ⟨c2, _, hst2, _, _⟩ := step_exists (pm := ⟨d, pm.dest, -1, false⟩) hv1 hlegal2
    exact multiLoop_single (d := d) (.cons hst2 (.nil _)) pm.dest a' _ _ hv1 (by omega)
      (by rw [moveAppend_forward (by intro p hp; simp at hp) hplt]; intro p hp; simp at hp; subst hp; exact hplt)
      (by simp) ⟨rfl, rfl⟩ (by intro q hq; simp at hq; rw [hq]) (by simp; omega) a'z

/-- An overlooked chequer is refused. -/
theorem multi_two_overlooked {b : Board} {src D d : Int} {a : Avail} (hv : Valid b) (hDd : d < D)
    (hD : a.num D = 1) (hd : a.num d = 1) (hz : ∀ e, e ≠ D → e ≠ d → a.num e = 0)
    (h : OffOverlooked (mine b) (theirs b) D d src) : (multiplePms b a src (-1)).res = .ok none := by
  obtain ⟨⟨hit, mD⟩, hx, i, hi, h25, hci⟩ := h
  have npos : 0 ≤ src - D := mD.2.2.1
  have s24 : src ≤ 24 := mD.2.2.2.1
  have lD : 1 ≤ D := mD.1
  obtain ⟨r, hr, hri⟩ := fromSource_ok hv a (src := src) (by omega) s24
  have hsome : r.isSome = true := hri.2 ⟨D, (mem_diceLeft a _).2 (by omega), src - D, hit, Or.inl mD⟩
  cases r with
  | none => simp at hsome
  | some pm =>
  obtain ⟨_, _, e1, e2, e3, e4⟩ := fromSource_none_or hv a src pm hr
  have hpD : pm.die = D := by
    apply Classical.byContradiction; intro hcc
    have : pm.die = d := by
      apply Classical.byContradiction; intro h'
      have := hz pm.die hcc h'
      omega
    exact e4 D (by omega) (by omega) (src - D) hit (Or.inl mD)
  have e3' := e3
  rw [hpD, e1] at e3'
  obtain ⟨ndest, _⟩ := legalStep_unique e3' (Or.inl mD)
  obtain ⟨hin, hun, hplt, _⟩ := LegalStep.inBoard e3
  obtain ⟨a', ha', hal, hna⟩ := Avail.consume_ok e2
  obtain ⟨c1, hc1, hst, hv1, _⟩ := step_exists hv e3
  have a'z : ∀ e, 0 < a'.num e → e = d := by
    intro e he
    apply Classical.byContradiction; intro hne
    have h5 := hna e
    by_cases heD : e = D
    · subst heD; rw [hpD] at h5; simp at h5; omega
    · have := hz e heD hne; omega
  -- nothing can be played on
  have hnone : fromSource c1 a' (src - D) = .ok none := by
    obtain ⟨r, hr, hri⟩ := fromSource_ok hv1 a' (src := src - D) npos (by omega)
    cases r with
    | none => exact hr
    | some q =>
      exfalso
      obtain ⟨e, he, dest, hit', hl⟩ := hri.1 rfl
      have := a'z e ((mem_diceLeft a' e).1 he)
      subst this
      rcases hl with hl | hl
      · have := hl.2.2.1
        have := hl.2.2.2.2.1
        omega
      · obtain ⟨_, _, _, _, _, _, _, _, hl | ⟨_, hl⟩⟩ := hl
        · omega
        · have h1 := hl i (by omega)
          have h2 := hst.mover i h25
          rw [e1, ndest] at h2
          omega
  unfold multiplePms multiLoop
  rw [if_neg (by omega), hr]
  simp only
  rw [if_neg (by simp [e1]), if_neg (by omega)]
  simp only [ha']
  rw [if_pos (by omega), hc1]
  simp only
  have hpos : 0 < a.len := by
    omega
  obtain ⟨n, hn⟩ : ∃ n, a.len = n + 1 := ⟨a.len - 1, by omega⟩
  rw [hn]
  unfold multiLoop
  rw [if_neg (by omega), ndest, hnone]
  simp only
  have hback : c1.makePartialMove pm.inverse = .ok b := by
    have e1 := makePartialMove_mv hv.shape hin
    rw [hc1] at e1
    simp only [Except.ok.injEq] at e1
    rw [makePartialMove_mv hv1.shape (inBoard_inverse hin hplt), e1, mv_inverse _ _ (by omega)]
  simp only [hback]

end Bglib
