import Verif.Lemmas.PickupCases
import Verif.Lemmas.MultiComplete
import Verif.Lemmas.Suggested
/-
Helper lemmas for C19: the question after taking the movements back.
-/
namespace Bglib
open Spec Factory

theorem multiplePms_board {b : Board} (hv : Valid b) (a : Avail) {src dst : Int} (h0 : 0 ≤ src) (h1 : src ≤ 24)
    (hd : dst < src) : ∃ r, multiplePms b a src dst = ⟨b, .ok r⟩ ∧ ∀ pms, r = some pms →
      Leads pms src dst ∧ Playable b (diceLeft a) pms := by
  obtain ⟨res, hr, hok, hs⟩ := multiLoop_spec (dest := dst) (a.len + 1) b src a [] hv (by omega)
    (by intro p hp; simp at hp)
  obtain ⟨r, rfl⟩ := hok hd (by omega) h1
  refine ⟨r, hr, ?_⟩
  rintro pms rfl
  obtain ⟨c, hc, _, h3, h4, h5⟩ := hs pms rfl
  simp only [List.nil_append] at hc
  subst hc
  exact ⟨h3, h5, h4⟩

/-- What the search for a play of two dice from `src` to one of the places finds. -/
def FoundTwo (b : Board) (a : Avail) (src dst : Int) : Prop :=
  cnt (theirs b) (23 - dst).toNat < 2 ∧ ∃ pms, multiplePms b a src dst = ⟨b, .ok (some pms)⟩ ∧ pms.length = 2

theorem anyDoubleTo_spec {b : Board} (hv : Valid b) (a : Avail) {src : Int} (h0 : 0 ≤ src) (h1 : src ≤ 23)
    {ds : List Int} (hds : ∀ d ∈ ds, 0 ≤ d ∧ d < src) :
    ∃ r, anyDoubleTo b a src ds = ⟨b, .ok r⟩ ∧ (r = true ↔ ∃ d ∈ ds, FoundTwo b a src d) := by
  induction ds with
  | nil => exact ⟨false, rfl, by simp⟩
  | cons d ds ih =>
    obtain ⟨r, hr, hi⟩ := ih (fun k hk => hds k (by simp [hk]))
    have hd := hds d (by simp)
    have hpt : isPoint d = true := by simp [isPoint]; omega
    obtain ⟨q, hq, _⟩ := multiplePms_board hv a h0 (by omega : src ≤ 24) hd.2
    have skip : (¬ FoundTwo b a src d) → (r = true ↔ ∃ k ∈ d :: ds, FoundTwo b a src k) := by
      intro hn
      rw [hi, exists_mem_cons]
      exact ⟨Or.inr, fun h => h.resolve_left hn⟩
    unfold anyDoubleTo
    rw [isOpen_eq hv.shape hpt, isHitting_eq hv.shape hpt]
    by_cases ho : cnt (theirs b) (23 - d).toNat < 2
    · simp only [ho, decide_true, hq]
      cases q with
      | none =>
        refine ⟨r, hr, skip ?_⟩
        rintro ⟨_, pms, h, _⟩
        rw [hq] at h; simp at h
      | some pms =>
        simp only
        by_cases hl : pms.length = 2
        · rw [if_pos hl]
          exact ⟨true, rfl, by simp only [true_iff]; exact ⟨d, by simp, ho, pms, hq, hl⟩⟩
        · rw [if_neg hl]
          refine ⟨r, hr, skip ?_⟩
          rintro ⟨_, pms', h, h'⟩
          rw [hq] at h
          simp only [Asked.mk.injEq, Except.ok.injEq, Option.some.injEq, true_and] at h
          subst h; exact hl h'
    · have hh : ¬ cnt (theirs b) (23 - d).toNat = 1 := by omega
      simp only [ho, hh, decide_false]
      exact ⟨r, hr, skip fun h => ho h.1⟩

theorem anyDouble_spec {b : Board} (hv : Valid b) (a : Avail) {ns : List Int} (h : ∀ n ∈ ns, 0 ≤ n ∧ n ≤ 23) :
    ∃ r, anyDouble b a ns = ⟨b, .ok r⟩ ∧
      (r = true ↔ ∃ n ∈ ns, movable (mine b) n ∧ ∃ d, 0 ≤ d ∧ d < n ∧ FoundTwo b a n d) := by
  induction ns with
  | nil => exact ⟨false, rfl, by simp⟩
  | cons n ns ih =>
    obtain ⟨r, hr, hi⟩ := ih (fun k hk => h k (by simp [hk]))
    have hn := h n (by simp)
    unfold anyDouble
    rw [hasChequer_eq hv.shape hn.1 (by omega)]
    by_cases hm : movable (mine b) n
    · obtain ⟨q, hq, hqi⟩ := anyDoubleTo_spec hv a hn.1 hn.2 (ds := pyRange 0 n)
        (by intro d hd; rw [mem_pyRange] at hd; exact hd)
      simp only [hm, decide_true, hq]
      cases q with
      | true =>
        refine ⟨true, rfl, ?_⟩
        obtain ⟨d, hd, hf⟩ := hqi.1 rfl
        rw [mem_pyRange] at hd
        simp only [true_iff]
        exact ⟨n, by simp, hm, d, hd.1, hd.2, hf⟩
      | false =>
        refine ⟨r, hr, ?_⟩
        rw [hi, exists_mem_cons]
        refine ⟨Or.inr, fun h => h.resolve_left ?_⟩
        rintro ⟨_, d, h0, h1, hf⟩
        have := hqi.2 ⟨d, by rw [mem_pyRange]; exact ⟨h0, h1⟩, hf⟩
        simp at this
    · simp only [hm, decide_false]
      refine ⟨r, hr, ?_⟩
      rw [hi, exists_mem_cons]
      exact ⟨Or.inr, fun h => h.resolve_left fun h => hm h.1⟩

/-- A legal movement to a point covers the die exactly. -/
theorem legal_exact {m t : List Int} {die src dest : Int} {hit : Bool} (h : LegalStep m t die src dest hit)
    (h0 : 0 ≤ dest) : dest = src - die ∧ cnt t (23 - dest).toNat < 2 := by
  rcases h with h | h
  · exact ⟨h.2.2.2.2.1, h.2.2.2.2.2.2.2.1⟩
  · omega

/-- With two different dice the search finds a play of both with one chequer, if there is one. -/
theorem anyDouble_iff {b : Board} (hv : Valid b) {a : Avail} {D d : Int} (hDd : d < D) (hD : a.num D = 1)
    (hd : a.num d = 1) (hz : ∀ e, e ≠ D → e ≠ d → a.num e = 0) :
    ∃ r, anyDouble b a (pyRange 0 24) = ⟨b, .ok r⟩ ∧ (r = true ↔ BothByOne b (diceLeft a)) := by
  obtain ⟨r, hr, hi⟩ := anyDouble_spec hv a (ns := pyRange 0 24) (by intro n hn; rw [mem_pyRange] at hn; omega)
  refine ⟨r, hr, hi.trans ⟨?_, ?_⟩⟩
  · rintro ⟨n, hn, hm, dst, h0, h1, ho, pms, hq, hl⟩
    rw [mem_pyRange] at hn
    obtain ⟨q, hq', hs⟩ := multiplePms_board hv a hn.1 (by omega : n ≤ 24) h1
    rw [hq] at hq'
    simp only [Asked.mk.injEq, Except.ok.injEq, true_and] at hq'
    obtain ⟨h3, h4⟩ := hs pms hq'.symm
    exact ⟨pms, n, dst, h4, hl, h3, by omega, h0⟩
  · rintro ⟨pms, src, dst, ⟨⟨b2, hp⟩, hu⟩, hl, hlead, hs, h0⟩
    have hdice : ∀ q : List PartialMove, UsesDice q (diceLeft a) → ∀ pm ∈ q, pm.die = D ∨ pm.die = d := by
      intro q hq pm hm
      have hpos := (mem_diceLeft a _).1 (usesDice_mem hq pm hm)
      apply Classical.byContradiction; intro hc
      have := hz pm.die (fun e => hc (Or.inl e)) (fun e => hc (Or.inr e))
      omega
    have posD := Avail.num_pos_die (a := a) (d := D) (by omega)
    have posd := Avail.num_pos_die (a := a) (d := d) (by omega)
    match pms, hl with
    | [p1, p2], _ =>
      cases hp with
      | @cons _ b1 _ _ _ s1 hp =>
      cases hp with
      | cons s2 hp =>
      cases hp
      obtain ⟨l1, l2, l3⟩ := hlead
      have l3' : p2.dest = dst := l3
      obtain ⟨x2, o2⟩ := legal_exact s2.legal (by omega)
      have lt2 := (LegalStep.inBoard s2.legal).2.2.1
      have lt1 := (LegalStep.inBoard s1.legal).2.2.1
      obtain ⟨x1, o1⟩ := legal_exact s1.legal (by omega)
      have hm1 := legalStep_movable s1.legal
      have d1 := hdice _ hu p1 (by simp)
      have d2 := hdice _ hu p2 (by simp)
      have hne : p1.die ≠ p2.die := by
        intro e
        have := hu p1.die
        rw [count_diceLeft] at this
        simp only [List.map_cons, List.map_nil, e, List.count_cons_self] at this
        rcases d2 with h | h <;> rw [h] at this <;> omega
      have hsum : p1.die + p2.die = D + d := by
        rcases d1 with h | h <;> rcases d2 with h' | h' <;> omega
      refine ⟨src, by rw [mem_pyRange]; omega, l1 ▸ hm1.2.2, dst, h0, by omega, ?_, ?_⟩
      · rw [← l3']
        have hb : (23 - p2.dest).toNat < 25 := by omega
        have := s1.other _ hb
        unfold otherAfter at this
        rw [if_neg (by omega), if_neg (by omega)] at this
        omega
      · obtain ⟨x, hx⟩ := multi_two hv (.cons s1 (.cons s2 (.nil _))) (by simp) (show Leads [p1, p2] src dst from ⟨l1, l2, l3⟩)
          h0 hDd hD hd hz hu
        obtain ⟨q, hq, hs'⟩ := multiplePms_board hv a (by omega : 0 ≤ src) (by omega : src ≤ 24) (by omega : dst < src)
        rw [hq] at hx
        simp only [Except.ok.injEq] at hx
        subst hx
        refine ⟨x, hq, ?_⟩
        obtain ⟨y1, ⟨c, hc⟩, y3⟩ := hs' x rfl
        have hlen : x.length ≤ 2 := by
          have h5 := usesDice_length y3
          have : (diceLeft a).length = 2 := by
            have hperm : (diceLeft a).Perm [D, d] := by
              rw [List.perm_iff_count]; intro e
              rw [count_diceLeft]
              by_cases e1 : e = D
              · subst e1
                have : ¬ d = e := by omega
                rw [hD]; simp [this]
              · by_cases e2 : e = d
                · subst e2
                  have : ¬ D = e := by omega
                  rw [hd]; simp [this]
                · have e1' : ¬ D = e := fun h => e1 h.symm
                  have e2' : ¬ d = e := fun h => e2 h.symm
                  simp [hz e e1 e2, e1', e2']
            simpa using hperm.length_eq
          omega
        match x, y1, y3, hc with
        | [], y1, _, _ => have : src = dst := y1; omega
        | [z], y1, y3, hc =>
          cases hc with
          | cons sz _ =>
          have hz1 : z.src = src := y1.1
          have hz2 : z.dest = dst := y1.2
          obtain ⟨xz, _⟩ := legal_exact sz.legal (by omega)
          have := hdice _ y3 z (by simp)
          omega
        | [_, _], _, _, _ => rfl
        | _ :: _ :: _ :: _, _, _, _ => simp at hlen

theorem getMax_of {a : Avail} {D : Int} (h : 0 < a.num D) (hm : ∀ e, 0 < a.num e → e ≤ D) : a.getMax = some D := by
  cases hg : a.getMax with
  | none => have := Avail.getMax_none hg D; omega
  | some x =>
    obtain ⟨h1, h2⟩ := Avail.getMax_some hg
    have := hm x h1
    have := h2 D h
    congr 1; omega

theorem num_single {D : Int} (h : 1 ≤ D ∧ D ≤ 6) (e : Int) :
    (Avail.ofRoll (D, 0)).num e = if e = D then 1 else 0 := by
  unfold Avail.ofRoll
  simp only
  rw [if_neg (by omega), if_neg (by omega)]
  have h0 : ∀ (a : Avail) v e, (a.put 0 v).num e = a.num e := by
    intro a v e; simp [Avail.put, Avail.num, Avail.count]
  rw [h0, Avail.num_put _ h]
  split
  · rfl
  · unfold Avail.num Avail.count; repeat' split
    all_goals rfl

/-- After one movement with one of two different dice: the movement is taken back and the answer given for
the board before. -/
theorem pickupRewound_one {b b1 : Board} {pm : PartialMove} {f : Factory} {D d : Int} (hv : Valid b)
    (h : Playing b f) (hm : f.move = [pm]) (hDd : d < D)
    (hr : ∀ e, (diceOf b.rolled).count e = if e = D ∨ e = d then 1 else 0) (hb1 : f.board = b1) :
    ∃ r, f.pickupRewound = ⟨b, .ok r⟩ ∧
      (r = false ↔ BothByOne b (diceOf b.rolled) ∨ (pm.die = d ∧ FromPoint b D)) := by
  obtain ⟨f', ha, hm', hp'⟩ := playing_back (pms := []) hv h (by rw [hm]; rfl)
  have hpd : pm.die = D ∨ pm.die = d := by
    have := h.dice pm.die
    rw [hr, hm] at this
    simp only [List.map_cons, List.map_nil, List.count_cons_self] at this
    apply Classical.byContradiction; intro hc
    rw [if_neg hc] at this; omega
  have hfn : ∀ e, f.avail.num e = if (e = D ∨ e = d) ∧ e ≠ pm.die then 1 else 0 := by
    intro e
    have := h.dice e
    rw [hr, hm] at this
    simp only [List.map_cons, List.map_nil, List.count_cons, List.count_nil, beq_iff_eq] at this
    by_cases e1 : e = D ∨ e = d <;> by_cases e2 : pm.die = e
    · rw [if_pos e2, if_pos e1] at this
      rw [if_neg (by rintro ⟨_, h⟩; exact h e2.symm)]; omega
    · have e2' : ¬ e = pm.die := fun h => e2 h.symm
      simp [e1, e2, e2'] at this ⊢; omega
    · exact absurd (by omega) e1
    · simp [e1, e2] at this ⊢; omega
  have hf'n : ∀ e, f'.avail.num e = if e = D ∨ e = d then 1 else 0 := by
    intro e; have := hp'.dice e; rw [hr, hm'] at this; simpa using this
  have hD : f'.avail.num D = 1 := by rw [hf'n]; simp
  have hd : f'.avail.num d = 1 := by rw [hf'n]; simp
  have hz : ∀ e, e ≠ D → e ≠ d → f'.avail.num e = 0 := by intro e h1 h2; rw [hf'n]; simp [h1, h2]
  have hfb : f'.board = b := by have := hp'.play; rw [hm'] at this; cases this; rfl
  have hcount : ∀ e, (diceLeft f'.avail).count e = (diceOf b.rolled).count e := by
    intro e; rw [count_diceLeft, hf'n, hr]
  have hby : BothByOne b (diceLeft f'.avail) ↔ BothByOne b (diceOf b.rolled) := by
    unfold BothByOne Playable UsesDice
    simp only [hcount]
  have hlen : f.avail.len ≠ 0 := by
    intro hl
    have h1 : ∀ e, f.avail.num e = 0 := by
      intro e; have := Avail.num_le_len f.avail e; omega
    rcases hpd with e | e
    · have := h1 d; rw [hfn, if_pos ⟨Or.inr rfl, by omega⟩] at this; omega
    · have := h1 D; rw [hfn, if_pos ⟨Or.inl rfl, by omega⟩] at this; omega
  have hnew : Factory.new f.board f.move (some f.avail) = f := by
    unfold Factory.new
    simp only [hlen, ne_eq, not_false_eq_true, if_true]
  obtain ⟨r, hr1, hr2⟩ := anyDouble_iff hv hDd hD hd hz
  have hmax' : f'.avail.getMax = some D := by
    apply getMax_of (by omega)
    intro e he; rw [hf'n] at he; split at he <;> omega
  have posD := Avail.num_pos_die (a := f'.avail) (d := D) (by omega)
  unfold Factory.pickupRewound
  rw [hnew, hm]
  simp only [List.map_cons, List.map_nil, addAll_one, ha, hm', ne_eq, not_true, if_false, hfb, hr1]
  cases r with
  | true => exact ⟨false, rfl, by simp only [true_iff]; exact Or.inl (hby.1 (hr2.1 rfl))⟩
  | false =>
    have hnb : ¬ BothByOne b (diceOf b.rolled) := fun h => by have := hr2.2 (hby.2 h); simp at this
    simp only [hmax']
    rcases hpd with e | e
    · have hmax : f.avail.getMax = some d := by
        apply getMax_of
        · rw [hfn, if_pos ⟨Or.inr rfl, by omega⟩]; omega
        · intro x hx; rw [hfn] at hx; split at hx <;> omega
      rw [hmax, if_pos (by simp; omega)]
      refine ⟨true, rfl, ?_⟩
      simp only [Bool.true_eq_false, false_iff, not_or, not_and]
      exact ⟨hnb, fun h => by omega⟩
    · have hmax : f.avail.getMax = some D := by
        apply getMax_of
        · rw [hfn, if_pos ⟨Or.inl rfl, by omega⟩]; omega
        · intro x hx; rw [hfn] at hx; split at hx <;> omega
      rw [hmax, if_neg (by simp)]
      obtain ⟨s, hs, hsi⟩ := anySingle_points hv (Avail.ofRoll (D, 0))
      rw [hs]
      refine ⟨!s, rfl, ?_⟩
      have hfp : NoPointStep b (Avail.ofRoll (D, 0)) ↔ ¬ FromPoint b D := by
        constructor
        · rintro hn ⟨src, dest, hit, h1, hl⟩
          exact hn src (legalStep_movable hl).1 h1 ⟨D, by rw [mem_diceLeft, num_single posD]; simp, dest, hit, hl⟩
        · rintro hn n _ h1 ⟨x, hx, dest, hit, hl⟩
          rw [mem_diceLeft, num_single posD] at hx
          have : x = D := by apply Classical.byContradiction; intro hc; simp [hc] at hx
          subst this
          exact hn ⟨n, dest, hit, h1, hl⟩
      cases s with
      | false => simp [hnb, e, hfp.1 (hsi.1 rfl)]
      | true =>
        have : FromPoint b D := by
          apply Classical.byContradiction; intro hc
          have := hsi.2 (hfp.2 hc); simp at this
        simp [hnb, e, this]

/-- The larger and the smaller of two different dice. -/
theorem diceOf_sorted {r : Int × Int} (h : r.1 ≠ r.2) : ∃ D d, d < D ∧ (D = max r.1 r.2) ∧
    ∀ e, (diceOf r).count e = if e = D ∨ e = d then 1 else 0 := by
  have key : ∀ e, (diceOf r).count e = if e = r.1 ∨ e = r.2 then 1 else 0 := by
    intro e
    unfold diceOf
    rw [if_neg h]
    simp only [List.count_cons, List.count_nil, beq_iff_eq]
    by_cases e1 : r.1 = e <;> by_cases e2 : r.2 = e
    · exact absurd (e1.trans e2.symm) h
    · simp [e1, e2]
    · simp [e1, e2]
    · have e1' : ¬ e = r.1 := fun h => e1 h.symm
      have e2' : ¬ e = r.2 := fun h => e2 h.symm
      simp [e1, e2, e1', e2']
  by_cases hlt : r.1 < r.2
  · refine ⟨r.2, r.1, hlt, by omega, fun e => ?_⟩
    rw [key]; simp only [or_comm]
  · exact ⟨r.1, r.2, by omega, by omega, key⟩

/-- All the cases of the question during a turn. -/
theorem pickup_all {b : Board} {f : Factory} (hv : Valid b) (h1 : 1 ≤ b.rolled.1 ∧ b.rolled.1 ≤ 6)
    (h : Playing b f) :
    (f.move.length = (diceOf b.rolled).length ∧ f.isLegalToPickupDice = ⟨f.board, .ok true⟩) ∨
    (CanMove f.board (diceLeft f.avail) ∧ cnt (mine f.board) 24 = 0 ∧
      f.isLegalToPickupDice = ⟨f.board, .ok false⟩) ∨
    (f.avail.len ≠ 0 ∧ (b.rolled.1 = b.rolled.2 ∨ f.move = []) ∧
      (cnt (mine f.board) 24 ≠ 0 ∨ ¬ CanMove f.board (diceLeft f.avail)) ∧
      f.isLegalToPickupDice = ⟨f.board, .ok true⟩) ∨
    (¬ CanMove f.board (diceLeft f.avail) ∧ cnt (mine f.board) 24 ≠ 0 ∧ b.rolled.1 ≠ b.rolled.2 ∧
      (∃ pm, f.move = [pm]) ∧ f.isLegalToPickupDice = ⟨f.board, .ok true⟩) ∨
    (b.rolled.1 ≠ b.rolled.2 ∧ (cnt (mine f.board) 24 = 0 ↔ ¬ CanMove f.board (diceLeft f.avail)) ∧
      ∃ pm, f.move = [pm] ∧ ∃ r, f.isLegalToPickupDice = ⟨b, .ok r⟩ ∧
        (r = false ↔ BothByOne b (diceOf b.rolled) ∨
          (pm.die ≠ max b.rolled.1 b.rolled.2 ∧ FromPoint b (max b.rolled.1 b.rolled.2)))) := by
  have hv1 : Valid f.board := h.play.valid hv
  have hroll : f.board.rolled = b.rolled := frame_play h.play
  have hr0 : f.board.rolled ≠ (0, 0) := by rw [hroll]; intro h; rw [h] at h1; simp at h1
  obtain ⟨c1, c2, c3, c4, c5⟩ := pickup_cases hv1 hr0
  rw [hroll] at c4 c5
  have hll := len_diceLeft f.avail
  rw [h.extra] at hll
  have hperm : (diceLeft f.avail ++ f.move.map (·.die)).Perm (diceOf b.rolled) := by
    rw [List.perm_iff_count]; intro d; rw [List.count_append, count_diceLeft]; exact h.dice d
  have hlenp := hperm.length_eq
  simp only [List.length_append, List.length_map] at hlenp
  by_cases hl : f.avail.len = 0
  · left; exact ⟨by omega, c1 hl⟩
  right
  by_cases hgo : CanMove f.board (diceLeft f.avail) ∧ cnt (mine f.board) 24 = 0
  · left; exact ⟨hgo.1, hgo.2, c2 hl hgo.2 hgo.1⟩
  right
  have hno : cnt (mine f.board) 24 ≠ 0 ∨ ¬ CanMove f.board (diceLeft f.avail) := by
    by_cases hb : cnt (mine f.board) 24 = 0
    · exact Or.inr fun hc => hgo ⟨hc, hb⟩
    · exact Or.inl hb
  have hps : cnt (mine f.board) 24 ≠ 0 → ¬ CanMove f.board (diceLeft f.avail) →
      f.isLegalToPickupDice = ⟨f.board, .ok true⟩ := c3 hl
  have hother : (cnt (mine f.board) 24 = 0 ↔ ¬ CanMove f.board (diceLeft f.avail)) → f.isLegalToPickupDice =
      if b.rolled.1 = b.rolled.2 then ⟨f.board, .ok true⟩ else f.pickupRewound := by
    intro hi
    by_cases hb : cnt (mine f.board) 24 = 0
    · exact c4 hl hb (hi.1 hb)
    · exact c5 hl hb (Classical.byContradiction fun hc => hb (hi.2 hc))
  have hsplit : (cnt (mine f.board) 24 ≠ 0 ∧ ¬ CanMove f.board (diceLeft f.avail)) ∨
      (cnt (mine f.board) 24 = 0 ↔ ¬ CanMove f.board (diceLeft f.avail)) := by
    by_cases hb : cnt (mine f.board) 24 = 0 <;> by_cases hc : CanMove f.board (diceLeft f.avail)
    · exact absurd ⟨hc, hb⟩ hgo
    · right; simp [hb, hc]
    · right; simp [hb, hc]
    · left; exact ⟨hb, hc⟩
  by_cases hdb : b.rolled.1 = b.rolled.2
  · left
    refine ⟨hl, Or.inl hdb, hno, ?_⟩
    rcases hsplit with ⟨hb, hc⟩ | hi
    · exact hps hb hc
    · rw [hother hi, if_pos hdb]
  have h2l : (diceOf b.rolled).length = 2 := by unfold diceOf; rw [if_neg hdb]; rfl
  match hm : f.move with
  | [] =>
    left
    refine ⟨hl, Or.inr rfl, hno, ?_⟩
    rcases hsplit with ⟨hb, hc⟩ | hi
    · exact hps hb hc
    · rw [hother hi, if_neg hdb]
      apply pickupRewound_empty hv1 hm hl h.extra
      by_cases hb : cnt (mine f.board) 24 = 0
      · exact noPointStep_of (hi.1 hb)
      · exact noPointStep_bar hb
  | [pm] =>
    right
    rcases hsplit with ⟨hb, hc⟩ | hi
    · left; exact ⟨hc, hb, hdb, ⟨pm, rfl⟩, hps hb hc⟩
    · right
      refine ⟨hdb, hi, pm, rfl, ?_⟩
      obtain ⟨D, d, hDd, hmax, hcnt⟩ := diceOf_sorted hdb
      obtain ⟨r, hr, hri⟩ := pickupRewound_one hv h hm hDd hcnt rfl
      refine ⟨r, by rw [hother hi, if_neg hdb, hr], ?_⟩
      rw [hri, ← hmax]
      have hpd : pm.die = D ∨ pm.die = d := by
        have := h.dice pm.die
        rw [hcnt, hm] at this
        simp only [List.map_cons, List.map_nil, List.count_cons_self] at this
        apply Classical.byContradiction; intro hc
        rw [if_neg hc] at this; omega
      have : pm.die = d ↔ pm.die ≠ D := by omega
      rw [this]
  | _ :: _ :: l =>
    rw [hm] at hlenp
    simp only [List.length_cons] at hlenp
    omega

theorem playing_of_addAll {b b1 : Board} {pms : List PartialMove} {f : Factory} (hv : Valid b)
    (h1 : 1 ≤ b.rolled.1 ∧ b.rolled.1 ≤ 6) (h2 : 1 ≤ b.rolled.2 ∧ b.rolled.2 ≤ 6)
    (hp : PlayTo b pms b1) (hu : UsesDice pms (diceOf b.rolled))
    (hf : (Factory.new b).addAll pms = ⟨f, none⟩) : Playing b f ∧ f.move = pms ∧ f.board = b1 := by
  obtain ⟨f', e, hm, hb, hpl, _⟩ := playing_play hv (playing_new h1 h2) hp
    (by intro d; have := hu d; simpa [Factory.new, num_ofRoll h1 h2] using this)
  rw [hf] at e
  simp only [Step.mk.injEq, and_true] at e
  subst e
  exact ⟨hpl, by simpa [Factory.new] using hm, hb⟩

/-- The mover never puts a chequer of theirs on the bar. -/
theorem bar_before {b b1 : Board} {pms : List PartialMove} (hv : Valid b) (hp : PlayTo b pms b1)
    (h : cnt (mine b1) 24 ≠ 0) : cnt (mine b) 24 ≠ 0 := by
  induction hp with
  | nil => exact h
  | @cons b c b2 pm pms hs _ ih =>
    obtain ⟨_, _, hsv, hcv, _⟩ := step_exists hv hs.legal
    obtain rfl := step_unique hs hsv
    have h3 := ih hcv h
    intro h0
    have := hs.mover 24 (by omega)
    have hlt := (LegalStep.inBoard hs.legal).2.2.1
    have hm := legalStep_movable hs.legal
    have hne : pm.src ≠ 24 := by
      intro e
      have := hm.2.2.1
      rw [e] at this
      exact this h0
    unfold moverAfter at this
    rw [if_neg (by omega), if_neg (by omega)] at this
    omega

theorem sum_perm {l m : List Int} (h : l.Perm m) : l.sum = m.sum := by
  induction h with
  | nil => rfl
  | cons x _ ih => simp [ih]
  | swap x y l => simp; omega
  | trans _ _ h1 h2 => exact h1.trans h2

theorem max_mem {r : Int × Int} : max r.1 r.2 ∈ diceOf r := by
  unfold diceOf
  split
  · rename_i h; simp; omega
  · simp; omega

/-- A movement with a die of the roll is a legal play of it. -/
theorem playable_one {b : Board} (hv : Valid b) {pm : PartialMove} (hd : pm.die ∈ diceOf b.rolled)
    (hl : LegalStep (mine b) (theirs b) pm.die pm.src pm.dest pm.isHitting) :
    Playable b (diceOf b.rolled) [pm] := by
  obtain ⟨c, _, hs, _, _⟩ := step_exists hv hl
  refine ⟨⟨c, .cons hs (.nil _)⟩, fun e => ?_⟩
  by_cases h : pm.die = e
  · subst h
    have := List.count_pos_iff.2 hd
    simp; omega
  · simp [h]

end Bglib
