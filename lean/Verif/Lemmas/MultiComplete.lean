import Verif.Lemmas.Turn
namespace Bglib
open Spec Factory

/-- The movement of a die from a point is determined by the board. -/
theorem legalStep_unique {m t : List Int} {d s dest dest' : Int} {hit hit' : Bool}
    (h : LegalStep m t d s dest hit) (h' : LegalStep m t d s dest' hit') : dest = dest' ∧ hit = hit' := by
  have e := legalStep_land h
  have e' := legalStep_land h'
  refine ⟨by rw [e, e'], ?_⟩
  rcases h with h | h <;> rcases h' with h' | h'
  · have : dest = dest' := by rw [e, e']
    subst this
    have h1 := h.2.2.2.2.2.2.2.2
    have h2 := h'.2.2.2.2.2.2.2.2
    cases hit <;> cases hit' <;> simp_all
  · have h1 := h.2.2.1; have h2 := h'.1; omega
  · have h1 := h'.2.2.1; have h2 := h.1; omega
  · rw [h.2.1, h'.2.1]

theorem pm_eq {m t : List Int} {p q : PartialMove} (hs : p.src = q.src) (hd : p.die = q.die)
    (h : LegalStep m t p.die p.src p.dest p.isHitting) (h' : LegalStep m t q.die q.src q.dest q.isHitting) :
    p = q := by
  rw [hs, hd] at h
  obtain ⟨e1, e2⟩ := legalStep_unique h h'
  cases p; cases q; simp_all

theorem Spec.Leads.le {pms : List PartialMove} {b b' : Board} (hp : PlayTo b pms b') {s d : Int}
    (h : Leads pms s d) : d ≤ s ∧ (pms ≠ [] → d < s) := by
  induction hp generalizing s with
  | nil => simp only [Leads] at h; exact ⟨by omega, by simp⟩
  | @cons b b1 b2 pm pms hs _ ih =>
    simp only [Leads] at h
    have h1 := (ih h.2).1
    have := (LegalStep.inBoard hs.legal).2.2.1
    exact ⟨by omega, fun _ => by omega⟩

/-- A chain with one die is found. -/
theorem multiLoop_single {d dest : Int} {b b' : Board} {c : List PartialMove} (hp : PlayTo b c b') :
    ∀ (src : Int) (a : Avail) (ms : List PartialMove) (fuel : Nat), Valid b → a.len < fuel → Forward ms →
      c ≠ [] → Leads c src dest → (∀ pm ∈ c, pm.die = d) → c.length ≤ a.num d →
      (∀ e, e ≠ d → a.num e = 0) →
      ∃ r, (multiLoop b dest fuel src a ms).res = .ok (some r) := by
  induction hp with
  | nil => intro _ _ _ _ _ _ _ h; exact absurd rfl h
  | @cons b b1 b2 pm c hs hrest ih =>
    intro src a ms fuel hv hf hfw _ hlead hd hn hz
    obtain ⟨hsrc, hlead'⟩ := hlead
    have hlt := (Leads.le (.cons hs hrest) ⟨hsrc, hlead'⟩).2 (by simp)
    have hmv := legalStep_movable hs.legal
    have hdie := hd pm (by simp)
    simp only [List.length_cons] at hn
    obtain ⟨r, hr, hri⟩ := fromSource_ok hv a (src := src) (by omega) (by omega)
    have hsome : r.isSome = true := hri.2 ⟨d, (mem_diceLeft a d).2 (by omega), pm.dest, pm.isHitting, by
      have := hs.legal; rwa [hsrc, hdie] at this⟩
    cases r with
    | none => simp at hsome
    | some pm' =>
      obtain ⟨_, _, e1, e2, e3, _⟩ := fromSource_none_or hv a src pm' hr
      have ed : pm'.die = d := by
        apply Classical.byContradiction; intro hc
        have := hz _ hc; omega
      have : pm' = pm := pm_eq (by rw [e1, hsrc]) (by rw [ed, hdie]) e3 hs.legal
      subst this
      obtain ⟨hin, hun, hplt, _⟩ := LegalStep.inBoard hs.legal
      obtain ⟨res, he, _, hsp⟩ := multiLoop_spec (dest := dest) fuel b src a ms hv
        (by omega : a.len < fuel) hfw
      cases fuel with
      | zero => omega
      | succ fuel =>
        unfold multiLoop
        rw [if_neg (by omega), hr]
        simp only
        rw [if_neg (by simp [hsrc])]
        by_cases hdd : pm'.dest = dest
        · rw [if_pos hdd]; exact ⟨_, rfl⟩
        · rw [if_neg hdd]
          have hpos : 0 < a.num pm'.die := e2
          obtain ⟨a', ha', hl, hna⟩ := Avail.consume_ok hpos
          simp only [ha']
          have hcn : c ≠ [] := by
            rintro rfl
            exact hdd hlead'
          have hfur := (Leads.le hrest hlead').2 hcn
          rw [if_pos hfur]
          obtain ⟨c1, hc1, hst, hv1, _⟩ := step_exists hv hs.legal
          obtain rfl := step_unique hs hst
          rw [hc1]
          simp only
          have hfw' : Forward (moveAppend ms pm') := by
            rw [moveAppend_forward hfw hplt]
            intro p hp
            simp only [List.mem_append, List.mem_singleton] at hp
            rcases hp with hp | rfl
            · exact hfw p hp
            · exact hplt
          obtain ⟨r, hr⟩ := ih pm'.dest a' (moveAppend ms pm') fuel hv1 (by omega) hfw' hcn hlead'
            (fun p hp => hd p (by simp [hp])) (by have := hna d; simp [ed] at this; omega)
            (by intro e he; have := hna e; have := hz e he; omega)
          obtain ⟨res, hms, _⟩ := multiLoop_spec (dest := dest) fuel b1 pm'.dest a' (moveAppend ms pm') hv1
            (by omega) hfw'
          rw [hms] at hr ⊢
          simp only at hr
          subst hr
          have hback : b1.makePartialMove pm'.inverse = .ok b := by
            have e1 := makePartialMove_mv hv.shape hin
            rw [hc1] at e1
            simp only [Except.ok.injEq] at e1
            rw [makePartialMove_mv hv1.shape (inBoard_inverse hin hplt), e1, mv_inverse _ _ (by omega)]
          simp only [hback]
          exact ⟨_, rfl⟩

/-- One round of the search when a first movement short of the destination is chosen. -/
theorem multiLoop_further {dest src : Int} {b b1 : Board} {a a' : Avail} {ms : List PartialMove} {fuel : Nat}
    {pm : PartialMove} (hv : Valid b) (hf : a.len < fuel + 1) (hfw : Forward ms)
    (hr : fromSource b a src = .ok (some pm)) (hb1 : b.makePartialMove pm = .ok b1)
    (ha : a.consume pm.die = .ok a') (hgt : pm.dest > dest)
    (hrec : ∃ r, (multiLoop b1 dest fuel pm.dest a' (moveAppend ms pm)).res = .ok (some r)) :
    ∃ r, (multiLoop b dest (fuel + 1) src a ms).res = .ok (some r) := by
  obtain ⟨_, _, e1, e2, e3, _⟩ := fromSource_none_or hv a src pm hr
  obtain ⟨hin, hun, hplt, _⟩ := LegalStep.inBoard e3
  obtain ⟨c1, hc1, hst, hv1, _⟩ := step_exists hv e3
  rw [hb1] at hc1
  simp only [Except.ok.injEq] at hc1
  subst hc1
  have hl : a'.len < fuel := by
    obtain ⟨a'', ha'', hl, _⟩ := Avail.consume_ok e2
    rw [ha] at ha''
    simp only [Except.ok.injEq] at ha''
    subst ha''; omega
  have hfw' : Forward (moveAppend ms pm) := by
    rw [moveAppend_forward hfw hplt]
    intro p hp
    simp only [List.mem_append, List.mem_singleton] at hp
    rcases hp with hp | rfl
    · exact hfw p hp
    · exact hplt
  unfold multiLoop
  rw [if_neg (by omega), hr]
  simp only
  rw [if_neg (by simp [e1]), if_neg (by omega)]
  simp only [ha]
  rw [if_pos hgt, hb1]
  simp only
  obtain ⟨r, hr⟩ := hrec
  obtain ⟨res, hms, _⟩ := multiLoop_spec (dest := dest) fuel b1 pm.dest a' (moveAppend ms pm) hv1 hl hfw'
  rw [hms] at hr ⊢
  simp only at hr
  subst hr
  have hback : b1.makePartialMove pm.inverse = .ok b := by
    have e1 := makePartialMove_mv hv.shape hin
    rw [hb1] at e1
    simp only [Except.ok.injEq] at e1
    rw [makePartialMove_mv hv1.shape (inBoard_inverse hin hplt), e1, mv_inverse _ _ (by omega)]
  simp only [hback]
  exact ⟨_, rfl⟩

theorem multiLoop_overrun {dest src : Int} {b : Board} {a a' : Avail} {ms : List PartialMove} {fuel : Nat}
    {pm : PartialMove} (hs : dest < src) (hsrc : pm.src = src)
    (hr : fromSource b a src = .ok (some pm))
    (ha : a.consume pm.die = .ok a') (hlt : pm.dest < dest)
    (hrec : ∃ r, (multiLoop b dest fuel src a' ms).res = .ok (some r)) :
    ∃ r, (multiLoop b dest (fuel + 1) src a ms).res = .ok (some r) := by
  unfold multiLoop
  rw [if_neg (by omega), hr]
  simp only
  rw [if_neg (by simp [hsrc]), if_neg (by omega)]
  simp only [ha]
  rw [if_neg (by omega)]
  exact hrec

/-- Two different dice, destination on the board. -/
theorem multi_two {b b' : Board} {c : List PartialMove} {src dest D d : Int} {a : Avail} (hv : Valid b)
    (hp : PlayTo b c b') (hc : c ≠ []) (hlead : Leads c src dest) (h0 : 0 ≤ dest) (hDd : d < D)
    (hD : a.num D = 1) (hd : a.num d = 1) (hz : ∀ e, e ≠ D → e ≠ d → a.num e = 0)
    (hu : UsesDice c (diceLeft a)) :
    ∃ r, (multiplePms b a src dest).res = .ok (some r) := by
  unfold multiplePms
  have hu' : ∀ e, (c.map (·.die)).count e ≤ a.num e := by
    intro e; have := hu e; rwa [count_diceLeft] at this
  have hdd : ∀ pm ∈ c, pm.die = D ∨ pm.die = d := by
    intro pm hm
    apply Classical.byContradiction; intro hcc
    have := hz pm.die (fun e => hcc (Or.inl e)) (fun e => hcc (Or.inr e))
    have := hu' pm.die
    have : 0 < (c.map (·.die)).count pm.die := List.count_pos_iff.2 (List.mem_map_of_mem hm)
    omega
  cases hp with
  | nil => exact absurd rfl hc
  | @cons _ b1 _ p1 rest hs1 hrest =>
  obtain ⟨hsrc, hlead'⟩ := hlead
  have hlt := (Leads.le (.cons hs1 hrest) ⟨hsrc, hlead'⟩).2 (by simp)
  have hmv := legalStep_movable hs1.legal
  rw [hsrc] at hmv
  have hp1d := hdd p1 (by simp)
  have hp1num : 0 < a.num p1.die := by rcases hp1d with h | h <;> rw [h] <;> omega
  have hl1 := hs1.legal
  rw [hsrc] at hl1
  obtain ⟨r, hr, hri⟩ := fromSource_ok hv a (src := src) hmv.1 hmv.2.1
  have hsome : r.isSome = true := hri.2 ⟨p1.die, (mem_diceLeft a _).2 hp1num, p1.dest, p1.isHitting, hl1⟩
  cases r with
  | none => simp at hsome
  | some pm =>
  obtain ⟨_, _, e1, e2, e3, e4⟩ := fromSource_none_or hv a src pm hr
  have hpmd : pm.die = D ∨ pm.die = d := by
    apply Classical.byContradiction; intro hcc
    have := hz pm.die (fun e => hcc (Or.inl e)) (fun e => hcc (Or.inr e))
    omega
  obtain ⟨a', ha', hal, hna⟩ := Avail.consume_ok e2
  obtain ⟨c1, hc1, hst, hv1, _⟩ := step_exists hv e3
  have hDnum : ∀ e, 0 < a.num e → 1 ≤ e ∧ e ≤ 6 := fun e h => Avail.num_pos_die h
  have lD := hDnum D (by omega)
  have ld := hDnum d (by omega)
  by_cases hsame : pm.die = p1.die
  · -- the search starts as the chain does
    have hpm : pm = p1 := pm_eq (by rw [e1, hsrc]) hsame e3 hs1.legal
    subst hpm
    by_cases hrn : rest = []
    · subst hrn
      have : pm.dest = dest := hlead'
      unfold multiLoop
      rw [if_neg (by omega), hr]
      simp only
      rw [if_neg (by simp [e1]), if_pos this]
      exact ⟨_, rfl⟩
    · obtain rfl := step_unique hs1 hst
      refine multiLoop_further hv (by omega) (by intro p hp; simp at hp) hr hc1 ha'
        ((Leads.le hrest hlead').2 hrn) ?_
      have hplt := (LegalStep.inBoard e3).2.2.1
      -- the rest uses the other die only
      have hother : ∃ o, o ≠ pm.die ∧ (∀ q ∈ rest, q.die = o) ∧ a'.num o = 1 ∧ (∀ e, e ≠ o → a'.num e = 0) := by
        have hcount := hu' pm.die
        simp only [List.map_cons, List.count_cons_self] at hcount
        have hno : ∀ q ∈ rest, q.die ≠ pm.die := by
          intro q hq hqe
          have : 0 < (rest.map (·.die)).count pm.die := by
            rw [← hqe]; exact List.count_pos_iff.2 (List.mem_map_of_mem hq)
          rcases hpmd with h | h <;> rw [h] at this hcount <;> omega
        rcases hpmd with h | h
        · refine ⟨d, by omega, ?_, ?_, ?_⟩
          · intro q hq
            rcases hdd q (by simp [hq]) with h' | h'
            · exact absurd (by rw [h', h]) (hno q hq)
            · exact h'
          · have := hna d; rw [if_neg (by omega)] at this; omega
          · intro e he
            have h5 := hna e
            by_cases heD : e = D
            · subst heD; rw [h] at h5; simp at h5; omega
            · have := hz e heD he; omega
        · refine ⟨D, by omega, ?_, ?_, ?_⟩
          · intro q hq
            rcases hdd q (by simp [hq]) with h' | h'
            · exact h'
            · exact absurd (by rw [h', h]) (hno q hq)
          · have := hna D; rw [if_neg (by omega)] at this; omega
          · intro e he
            have h5 := hna e
            by_cases heD : e = d
            · subst heD; rw [h] at h5; simp at h5; omega
            · have := hz e he heD; omega
      obtain ⟨o, ho, hall, ho1, hoz⟩ := hother
      have hlen : rest.length ≤ 1 := by
        have h5 := hu' o
        have h6 : (rest.map (·.die)).count o = rest.length := by
          rw [List.count_eq_length.2]
          · simp
          · intro x hx
            simp only [List.mem_map] at hx
            obtain ⟨q, hq, rfl⟩ := hx
            exact (hall q hq).symm
        simp only [List.map_cons, List.count_cons, h6] at h5
        have h7 := hna o
        rw [if_neg ho] at h7
        omega
      exact multiLoop_single (d := o) hrest pm.dest a' _ _ hv1 (by omega)
        (by rw [moveAppend_forward (by intro p hp; simp at hp) hplt]; intro p hp; simp at hp; subst hp; exact hplt)
        hrn hlead' hall (by omega) hoz
  · -- the search prefers the larger die, the chain starts with the smaller
    have hpD : pm.die = D ∧ p1.die = d := by
      rcases hpmd with h | h <;> rcases hp1d with h' | h'
      · exact absurd (by rw [h, h']) hsame
      · exact ⟨h, h'⟩
      · exfalso
        exact e4 D (by omega) (by rw [h]; exact hDd) p1.dest p1.isHitting (by rwa [h'] at hl1)
      · exact absurd (by rw [h, h']) hsame
    obtain ⟨hpmD, hp1d'⟩ := hpD
    have a'd : a'.num d = 1 := by have := hna d; rw [if_neg (by omega)] at this; omega
    have a'z : ∀ e, e ≠ d → a'.num e = 0 := by
      intro e he
      have h5 := hna e
      by_cases heD : e = D
      · subst heD; rw [hpmD] at h5; simp at h5; omega
      · have := hz e heD he; omega
    by_cases hrn : rest = []
    · -- one movement with the smaller die: the larger one overruns
      subst hrn
      have hdest : p1.dest = dest := hlead'
      have hdest1 : p1.dest = src - d := by
        rcases hl1 with h | h
        · rw [hp1d'] at h; exact h.2.2.2.2.1
        · have := h.1; omega
      have hover : pm.dest < dest := by
        have := legalStep_land e3
        rw [this, hpmD, e1]
        unfold land; split <;> omega
      refine multiLoop_overrun hlt e1 hr ha' hover ?_
      exact multiLoop_single (d := d) (.cons hs1 hrest) src a' [] _ hv (by omega)
        (by intro p hp; simp at hp) (by simp) ⟨hsrc, hlead'⟩
        (by intro q hq; simp at hq; subst hq; exact hp1d') (by simp; omega) a'z
    · -- both dice: the other order works as well
      cases hrest with
      | nil => exact absurd rfl hrn
      | @cons _ b2 _ p2 rest2 hs2 hrest2 =>
      have hp2 : p2.die = D := by
        rcases hdd p2 (by simp) with h | h
        · exact h
        · exfalso
          have h5 := hu' d
          simp only [List.map_cons, hp1d', h, List.count_cons_self] at h5
          omega
      have hr2 : rest2 = [] := by
        cases rest2 with
        | nil => rfl
        | cons q _ =>
          exfalso
          have h5 := hu' D
          have h6 := hu' d
          simp only [List.map_cons, List.count_cons, hp1d', hp2] at h5 h6
          rcases hdd q (by simp) with h | h <;> simp [h] at h5 h6 <;> omega
      subst hr2
      obtain ⟨hsrc2, hdest2⟩ := hlead'
      have hdest2 : p2.dest = dest := hdest2
      have l2 := hs2.legal
      rw [hp2, hsrc2, hdest2] at l2
      rw [hp1d'] at hl1
      have m1 : LegalMove (mine b) (theirs b) d src p1.dest p1.isHitting := by
        rcases hl1 with h | h
        · exact h
        · exfalso
          have := legalStep_land (Or.inr h : LegalStep (mine b) (theirs b) d src p1.dest p1.isHitting)
          have := h.1
          have := (legalStep_movable hs2.legal).1
          rw [hsrc2] at this; omega
      have m2 : LegalMove (mine b1) (theirs b1) D p1.dest dest p2.isHitting := by
        rcases l2 with h | h
        · exact h
        · have := h.1; omega
      obtain ⟨_, _, q1, q2, q3, q4, q5, q6, q7⟩ := m1
      obtain ⟨_, _, r1, r2, r3, r4, r5, r6, r7⟩ := m2
      have ndest : pm.dest = src - D := by
        have := legalStep_land e3
        rw [this, hpmD, e1]; unfold land; rw [if_pos (by omega)]
      have hgt : pm.dest > dest := by omega
      refine multiLoop_further hv (by omega) (by intro p hp; simp at hp) hr hc1 ha' hgt ?_
      have hplt := (LegalStep.inBoard e3).2.2.1
      -- the second movement on the board after the first
      have barb1 : cnt (mine b1) 24 = 0 := by
        apply Classical.byContradiction; intro hcc
        have := r5 hcc; omega
      have barc1 : cnt (mine c1) 24 = 0 := by
        have h1 := hs1.mover 24 (by omega)
        have h2 := hst.mover 24 (by omega)
        unfold moverAfter at h1 h2
        rw [hsrc, if_neg (by omega : ¬ ((24 : Nat) : Int) = p1.dest)] at h1
        rw [e1, if_neg (by omega : ¬ ((24 : Nat) : Int) = pm.dest)] at h2
        omega
      have hcq : 1 ≤ cnt (mine c1) (pm.dest).toNat := by
        have h2 := hst.mover pm.dest.toNat (by omega)
        unfold moverAfter at h2
        rw [e1, if_neg (by omega), if_pos (by omega)] at h2
        have := hv.mine_row.2 pm.dest.toNat
        omega
      have hopen0 : cnt (theirs b) (23 - dest).toNat < 2 := by
        have h1 := hs1.other (23 - dest).toNat (by omega)
        unfold otherAfter at h1
        rw [if_neg (by omega), if_neg (by omega)] at h1
        omega
      have hopen : cnt (theirs c1) (23 - dest).toNat < 2 := by
        have h1 := hst.other (23 - dest).toNat (by omega)
        unfold otherAfter at h1
        rw [if_neg (by omega), if_neg (by omega)] at h1
        omega
      have hlegal2 : LegalStep (mine c1) (theirs c1) d pm.dest dest
          (decide (cnt (theirs c1) (23 - dest).toNat = 1)) := by
        refine Or.inl ⟨ld.1, ld.2, h0, by omega, by omega, hcq, ?_, hopen, by simp⟩
        intro hcc; exact absurd barc1 hcc
      obtain ⟨c2, _, hst2, _, _⟩ := step_exists
        (pm := ⟨d, pm.dest, dest, decide (cnt (theirs c1) (23 - dest).toNat = 1)⟩) hv1 hlegal2
      exact multiLoop_single (d := d) (.cons hst2 (.nil _)) pm.dest a' _ _ hv1 (by omega)
        (by rw [moveAppend_forward (by intro p hp; simp at hp) hplt]; intro p hp; simp at hp; subst hp; exact hplt)
        (by simp) ⟨rfl, rfl⟩ (by intro q hq; simp at hq; rw [hq]) (by simp; omega) a'z

end Bglib
