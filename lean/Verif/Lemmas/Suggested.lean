import Verif.Spec.Suggested
import Verif.Spec.Course
import Verif.Lemmas.Turn
import Verif.Props.MoveFactory
import Verif.Props.Moves
/-
Helper lemmas for C91: the state of a factory during a turn.
-/
namespace Bglib
open Spec Factory

theorem addAll_one (f : Factory) (pm : PartialMove) : f.addAll [pm] = f.append pm := by
  unfold Factory.addAll
  cases h : f.append pm with
  | mk f' e => cases e <;> rfl

theorem avail_ext {a c : Avail} (h : ∀ d, a.num d = c.num d) (he : a.extra = c.extra) : a = c := by
  have h1 := h 1; have h2 := h 2; have h3 := h 3; have h4 := h 4; have h5 := h 5; have h6 := h 6
  simp only [Avail.num, Avail.count] at h1 h2 h3 h4 h5 h6
  cases a; cases c
  simp at h1 h2 h3 h4 h5 h6 he
  simp [*]

/-- The state of a turn: what was played is legal and recorded, the other dice are left. -/
structure Playing (b : Board) (f : Factory) : Prop where
  play : PlayTo b f.move f.board
  dice : ∀ d, f.avail.num d + (f.move.map (·.die)).count d = (diceOf b.rolled).count d
  extra : f.avail.extra = 0

theorem playTo_forward {b c : Board} {pms : List PartialMove} (h : PlayTo b pms c) : Forward pms := by
  induction h with
  | nil => intro p hp; simp at hp
  | cons hs _ ih =>
    intro p hp
    rcases List.mem_cons.1 hp with rfl | hp
    · exact (LegalStep.inBoard hs.legal).2.2.1
    · exact ih p hp

theorem playing_new {b : Board} (h1 : 1 ≤ b.rolled.1 ∧ b.rolled.1 ≤ 6) (h2 : 1 ≤ b.rolled.2 ∧ b.rolled.2 ≤ 6) :
    Playing b (Factory.new b) :=
  ⟨.nil b, fun d => by simp [Factory.new, num_ofRoll h1 h2], ofRoll_extra h1 h2⟩

theorem playing_play {b c : Board} {f : Factory} {pms : List PartialMove} (hv : Valid b) (h : Playing b f)
    (hp : PlayTo f.board pms c) (hd : ∀ d, (pms.map (·.die)).count d ≤ f.avail.num d) :
    ∃ f', f.addAll pms = ⟨f', none⟩ ∧ f'.move = f.move ++ pms ∧ f'.board = c ∧ Playing b f' ∧
      ∀ d, f'.avail.num d + (pms.map (·.die)).count d = f.avail.num d := by
  obtain ⟨a', e, hx, hn⟩ := addAll_play hp (h.play.valid hv) f rfl (playTo_forward h.play) hd
  refine ⟨_, e, rfl, rfl, ⟨h.play.append hp, fun d => ?_, hx.trans h.extra⟩, hn⟩
  have := h.dice d
  have := hn d
  simp only [List.map_append, List.count_append]
  omega

theorem offered_play {b : Board} {f : Factory} {pms : List PartialMove} (hv : Valid b) (h : Playing b f)
    (ho : Offered f pms) :
    (∃ c, PlayTo f.board pms c) ∧ (∀ d, (pms.map (·.die)).count d ≤ f.avail.num d) := by
  have hvf := h.play.valid hv
  have one : ∀ pm : PartialMove, pm.die ∈ diceLeft f.avail →
      LegalStep (mine f.board) (theirs f.board) pm.die pm.src pm.dest pm.isHitting →
      (∃ c, PlayTo f.board [pm] c) ∧ (∀ d, ([pm].map (·.die)).count d ≤ f.avail.num d) := by
    intro pm hd hl
    obtain ⟨c, _, hs, _⟩ := step_exists hvf hl
    refine ⟨⟨c, .cons hs (.nil _)⟩, fun d => ?_⟩
    have := (mem_diceLeft _ _).1 hd
    by_cases e : pm.die = d
    · subst e; simp; omega
    · simp [List.count_cons, e]
  cases ho with
  | source src pm hq =>
    obtain ⟨_, h2, h3⟩ := C16_source _ _ _ _ hvf hq
    exact one pm h2 h3
  | dest dest pm hq =>
    obtain ⟨_, h2, h3⟩ := C16_dest _ _ _ _ hvf hq
    exact one pm h2 h3
  | way src dest _ hq =>
    obtain ⟨_, _, h2, h3⟩ := C17_play _ _ _ _ _ hvf hq
    exact ⟨h3, fun d => by have := h2 d; rwa [count_diceLeft] at this⟩

theorem add_ok {a : Avail} {d : Int} (h : 1 ≤ d ∧ d ≤ 6) :
    ∃ a', a.add d = .ok a' ∧ a'.extra = a.extra ∧ ∀ e, a'.num e = a.num e + (if e = d then 1 else 0) := by
  have : d = 1 ∨ d = 2 ∨ d = 3 ∨ d = 4 ∨ d = 5 ∨ d = 6 := by omega
  rcases this with rfl | rfl | rfl | rfl | rfl | rfl
  all_goals
    refine ⟨_, rfl, rfl, fun e => ?_⟩
    unfold Avail.num Avail.count
    simp only [Avail.put, Int.reduceEq, if_true, if_false]
    by_cases e1 : e = 1
    · subst e1; simp
    by_cases e2 : e = 2
    · subst e2; simp
    by_cases e3 : e = 3
    · subst e3; simp
    by_cases e4 : e = 4
    · subst e4; simp
    by_cases e5 : e = 5
    · subst e5; simp
    by_cases e6 : e = 6
    · subst e6; simp
    simp [e1, e2, e3, e4, e5, e6]

theorem playing_back {b : Board} {f : Factory} {pms : List PartialMove} {pm : PartialMove} (hv : Valid b)
    (h : Playing b f) (hm : f.move = pms ++ [pm]) :
    ∃ f', f.append pm.inverse = ⟨f', none⟩ ∧ f'.move = pms ∧ Playing b f' := by
  have hp := h.play
  rw [hm] at hp
  obtain ⟨c, hc, hl⟩ := hp.split
  have hcv := hc.valid hv
  cases hl with
  | cons hs hr =>
    cases hr
    obtain ⟨⟨i1, i2, i3, i4, i5⟩, _, hlt, _⟩ := LegalStep.inBoard hs.legal
    have hdie : 1 ≤ pm.die ∧ pm.die ≤ 6 := by
      rcases hs.legal with hl | hl
      · exact ⟨hl.1, hl.2.1⟩
      · exact ⟨hl.2.2.1, hl.2.2.2.1⟩
    obtain ⟨e1, hx1, hs1, _⟩ := step_exists hcv hs.legal
    obtain rfl := step_unique hs hs1
    have lens : c.position.1.length = 25 ∧ c.position.2.length = 25 := by
      have a1 := hcv.mine_row.1
      have a2 := hcv.theirs_row.1
      unfold mine at a1; unfold theirs at a2
      split at a1 <;> simp_all
    obtain ⟨d, hd, hd'⟩ := C13_undo c pm.die pm.src pm.dest pm.isHitting hcv.turn lens.1 lens.2
      (by omega) hlt (by omega)
    obtain rfl := Except.ok.inj (hx1.symm.trans hd)
    obtain ⟨a', ha, hx, hn⟩ := add_ok (a := f.avail) hdie
    have hmv : moveAppend f.move pm.inverse = pms := by
      unfold moveAppend
      rw [hm]
      simp [removeInvertible, PartialMove.areInvertible, PartialMove.inverse]
    have hun : pm.inverse.isUndo = true := by
      simp [PartialMove.isUndo, PartialMove.inverse]; omega
    refine ⟨⟨c, pms, a'⟩, ?_, rfl, ⟨hc, fun x => ?_, hx.trans h.extra⟩⟩
    · unfold Factory.append
      simp only [hun, if_true, hmv]
      rw [show pm.inverse.die = pm.die from rfl, ha]
      simp only
      rw [show pm.inverse = (⟨pm.die, pm.dest, pm.src, pm.isHitting⟩ : PartialMove) from rfl, hd']
    · have := h.dice x
      have := hn x
      rw [hm] at *
      simp only [List.map_append, List.map_cons, List.map_nil, List.count_append, List.count_cons, List.count_nil,
        beq_iff_eq] at *
      by_cases e : x = pm.die
      · subst e; simp at *; omega
      · have e' : ¬ pm.die = x := fun h => e h.symm
        simp [e, e'] at *; omega

theorem suggested_playing {b : Board} (hv : Valid b) (h1 : 1 ≤ b.rolled.1 ∧ b.rolled.1 ≤ 6)
    (h2 : 1 ≤ b.rolled.2 ∧ b.rolled.2 ≤ 6) {f : Factory} (h : Suggested b f) : Playing b f := by
  induction h with
  | start => exact playing_new h1 h2
  | play f f' pms _ ho ha ih =>
    obtain ⟨⟨c, hc⟩, hd⟩ := offered_play hv ih ho
    obtain ⟨f1, e, _, _, hp, _⟩ := playing_play hv ih hc hd
    rw [e] at ha
    simp only [Step.mk.injEq, and_true] at ha
    exact ha ▸ hp
  | back f f' pms pm _ hm ha ih =>
    obtain ⟨f1, e, _, hp⟩ := playing_back hv ih hm
    rw [e] at ha
    simp only [Step.mk.injEq, and_true] at ha
    exact ha ▸ hp

/-- Pointing at source and destination finds the movement with one die between them. -/
theorem multi_direct {b : Board} {pm : PartialMove} (hv : Valid b)
    (hl : LegalStep (mine b) (theirs b) pm.die pm.src pm.dest pm.isHitting) (h0 : 0 ≤ pm.dest) :
    ∀ (fuel : Nat) (a : Avail), a.len < fuel → 0 < a.num pm.die →
      multiLoop b pm.dest fuel pm.src a [] = ⟨b, .ok (some [pm])⟩ := by
  have hlm : LegalMove (mine b) (theirs b) pm.die pm.src pm.dest pm.isHitting := by
    rcases hl with hl | hl
    · exact hl
    · omega
  obtain ⟨_, _, _, hsrc, hdest, _, _, _, hhit⟩ := id hlm
  obtain ⟨_, _, hlt, hs0⟩ := LegalStep.inBoard hl
  intro fuel
  induction fuel with
  | zero => intro a ha; omega
  | succ fuel ih =>
    intro a ha hn
    obtain ⟨r, hr, hi⟩ := fromSource_ok hv a hs0 hsrc
    have : r.isSome = true := hi.2 ⟨pm.die, (mem_diceLeft a _).2 hn, _, _, hl⟩
    obtain ⟨p, rfl⟩ := Option.isSome_iff_exists.1 this
    obtain ⟨_, _, e1, e2, e3, e4⟩ := fromSource_none_or hv a _ p hr
    unfold multiLoop
    rw [if_neg (by omega), hr]
    simp only
    rw [if_neg (by simpa using e1)]
    have hge : pm.die ≤ p.die := by
      apply Classical.byContradiction; intro hc
      exact e4 pm.die hn (by omega) _ _ hl
    by_cases heq : p.die = pm.die
    · have hp : p = pm := by
        rcases e3 with e3 | e3
        · obtain ⟨_, _, _, _, q5, _, _, _, q9⟩ := e3
          have hd : p.dest = pm.dest := by omega
          have hh : p.isHitting = pm.isHitting := by
            rw [hd] at q9
            cases x : p.isHitting <;> cases y : pm.isHitting <;> simp_all
          cases p; cases pm
          simp_all
        · obtain ⟨_, _, _, _, _, _, _, _, q⟩ := e3
          omega
      subst hp
      rw [if_pos rfl]
      rfl
    · have hlt' : p.dest < pm.dest := by
        rcases e3 with e3 | e3
        · have := e3.2.2.2.2.1; omega
        · have := e3.1; omega
      rw [if_neg (by omega)]
      obtain ⟨a', ha', hal, hna⟩ := Avail.consume_ok e2
      rw [ha']
      simp only
      rw [if_neg (by omega)]
      apply ih a' (by omega)
      have := hna pm.die
      rw [if_neg (fun h => heq h.symm)] at this
      omega

/-- A bear-off has the same result with any die. -/
theorem bearoff_same {b c : Board} {pm p : PartialMove} (hs : StepTo b pm c) (hd : pm.dest = -1) (hp : p.dest = -1)
    (he : p.src = pm.src) (hl : LegalStep (mine b) (theirs b) p.die p.src p.dest p.isHitting) : StepTo b p c := by
  have h1 : pm.isHitting = false := by
    rcases hs.legal with h | h
    · have := h.2.2.1; omega
    · exact h.2.1
  have h2 : p.isHitting = false := by
    rcases hl with h | h
    · have := h.2.2.1; omega
    · exact h.2.1
  refine ⟨hl, hs.len1, hs.len2, ?_, ?_, hs.frame⟩
  · intro i hi
    rw [hs.mover i hi, he, hd, hp]
  · intro i hi
    rw [hs.other i hi, h1, h2, hd, hp]

theorem diceOf_two {r : Int × Int} {D d : Int} (h : D ≠ d) (h1 : 0 < (diceOf r).count D) (h2 : 0 < (diceOf r).count d) :
    (diceOf r).count D = 1 ∧ (diceOf r).count d = 1 ∧ ∀ e, e ≠ D → e ≠ d → (diceOf r).count e = 0 := by
  unfold diceOf at *
  have m1 := List.count_pos_iff.1 h1
  have m2 := List.count_pos_iff.1 h2
  by_cases hr : r.1 = r.2
  · rw [if_pos hr] at m1 m2
    simp at m1 m2
    omega
  · rw [if_neg hr] at m1 m2 ⊢
    simp only [List.mem_cons, List.not_mem_nil, or_false] at m1 m2
    simp only [List.count_cons, List.count_nil, beq_iff_eq, Nat.zero_add]
    refine ⟨?_, ?_, fun e e1 e2 => ?_⟩
    all_goals (repeat' split) <;> omega

/-- Every legal play of the dice left is found, up to the order of the dice of two bear-offs. -/
theorem suggested_complete {b : Board} (hv : Valid b) (h1 : 1 ≤ b.rolled.1 ∧ b.rolled.1 ≤ 6)
    (h2 : 1 ≤ b.rolled.2 ∧ b.rolled.2 ≤ 6) : ∀ (n : Nat) (pms : List PartialMove) (c : Board) (f : Factory),
    pms.length = n → Suggested b f → PlayTo f.board pms c → (∀ d, (pms.map (·.die)).count d ≤ f.avail.num d) →
      ∃ f', Suggested b f' ∧ f'.board = c := by
  intro n
  induction n with
  | zero =>
    intro pms c f hn hs hp _
    obtain rfl := List.length_eq_zero_iff.1 hn
    cases hp
    exact ⟨f, hs, rfl⟩
  | succ n ih =>
    intro pms c f hn hs hp hd
    have hpl := suggested_playing hv h1 h2 hs
    have hvf := hpl.play.valid hv
    cases hp with
    | nil => simp at hn
    | @cons _ c1 _ pm rest hstep hrest =>
      have hpos : 0 < f.avail.num pm.die := by
        have := hd pm.die
        simp only [List.map_cons, List.count_cons_self] at this
        omega
      have one : ∀ p : PartialMove, Offered f [p] → StepTo f.board p c1 → 0 < f.avail.num p.die →
          ∃ f1, Suggested b f1 ∧ f1.board = c1 ∧
            ∀ x, f1.avail.num x + (if p.die = x then 1 else 0) = f.avail.num x := by
        intro p ho hsp hpp
        obtain ⟨f1, e1, _, e2, _, e3⟩ := playing_play hv hpl (.cons hsp (.nil _)) (by
          intro x
          simp only [List.map_cons, List.map_nil, List.count_cons, List.count_nil, beq_iff_eq]
          split
          · next h => subst h; omega
          · omega)
        refine ⟨f1, .play f f1 _ hs ho e1, e2, fun x => ?_⟩
        have := e3 x
        simp only [List.map_cons, List.map_nil, List.count_cons, List.count_nil, beq_iff_eq, Nat.zero_add] at this
        exact this
      have tailcount : ∀ x, (rest.map (·.die)).count x + (if pm.die = x then 1 else 0) ≤ f.avail.num x := by
        intro x
        have := hd x
        simp only [List.map_cons, List.count_cons, beq_iff_eq] at this
        exact this
      by_cases h0 : 0 ≤ pm.dest
      · have ho : Offered f [pm] := .way pm.src pm.dest [pm] (by
          unfold multiplePms
          rw [multi_direct hvf hstep.legal h0 _ _ (Nat.lt_succ_self _) hpos])
        obtain ⟨f1, g1, g2, g3⟩ := one pm ho hstep hpos
        subst g2
        refine ih rest c f1 (by simpa using hn) g1 hrest (fun x => ?_)
        have := tailcount x
        have := g3 x
        omega
      · have hb : pm.dest = -1 ∧ LegalBearoff (mine f.board) pm.die pm.src := by
          rcases hstep.legal with h | h
          · exact absurd h.2.2.1 h0
          · exact ⟨h.1, h.2.2⟩
        obtain ⟨hd1, hb⟩ := hb
        obtain ⟨b1, b2, b3, b4, b5, b6, b7⟩ := id hb
        obtain ⟨r, hr, hi⟩ := fromSource_ok hvf f.avail b3 (by omega : pm.src ≤ 24)
        have : r.isSome = true := hi.2 ⟨pm.die, (mem_diceLeft _ _).2 hpos, _, _, hstep.legal⟩
        obtain ⟨p, rfl⟩ := Option.isSome_iff_exists.1 this
        obtain ⟨_, _, e1, e2, e3, e4⟩ := fromSource_none_or hvf _ _ p hr
        have hge : pm.die ≤ p.die := by
          apply Classical.byContradiction; intro hc
          exact e4 pm.die hpos (by omega) _ _ hstep.legal
        have hpb : p.dest = -1 ∧ LegalBearoff (mine f.board) p.die p.src := by
          rcases e3 with h | h
          · have := h.2.2.1
            have := h.2.2.2.2.1
            omega
          · exact ⟨h.1, h.2.2⟩
        have hsp := bearoff_same hstep hd1 hpb.1 e1 e3
        obtain ⟨f1, g1, g2, g3⟩ := one p (.source _ _ hr) hsp e2
        subst g2
        by_cases hdd : p.die = pm.die
        · refine ih rest c f1 (by simpa using hn) g1 hrest (fun x => ?_)
          have := tailcount x
          have := g3 x
          rw [hdd] at this
          omega
        · have hcD := hpl.dice p.die
          have hcd := hpl.dice pm.die
          obtain ⟨k1, k2, k3⟩ := diceOf_two hdd (r := b.rolled) (by omega) (by omega)
          have hrd : ∀ x, x ≠ p.die → (rest.map (·.die)).count x = 0 := by
            intro x hx
            have := tailcount x
            have := hpl.dice x
            by_cases hx2 : pm.die = x
            · rw [if_pos hx2] at *
              subst hx2; omega
            · have := k3 x hx (fun h => hx2 h.symm)
              omega
          match rest, hrest, hn, tailcount, hrd with
          | [], hrest, _, _, _ =>
            cases hrest
            exact ⟨f1, g1, rfl⟩
          | q :: qs, hrest, hn, tailcount, hrd =>
            have hq : q.die = p.die := by
              apply Classical.byContradiction; intro hc
              have := hrd q.die hc
              simp at this
            have hqs : qs = [] := by
              match qs, hrd, tailcount with
              | [], _, _ => rfl
              | q2 :: qs, hrd, tailcount =>
                have hq2 : q2.die = p.die := by
                  apply Classical.byContradiction; intro hc
                  have := hrd q2.die hc
                  simp [List.count_cons] at this
                have := tailcount p.die
                simp only [List.map_cons, List.count_cons, hq, hq2, beq_self_eq_true, if_true] at this
                omega
            subst hqs
            cases hrest with
            | cons hsq hnil =>
              cases hnil
              have hz : ∀ i : Nat, pm.src < i → cnt (mine f1.board) i = 0 := by
                intro i hi
                by_cases hi25 : i < 25
                · rw [hsp.mover i hi25]
                  unfold moverAfter
                  rw [if_neg (by omega), if_neg (by omega)]
                  obtain ⟨_, _, _, _, _, _, hh⟩ := hpb.2
                  rcases hh with hh | hh
                  · omega
                  · have := hh.2 i (by omega)
                    omega
                · exact cnt_out hsp.len1 (by omega)
              have hqb : q.dest = -1 ∧ q.isHitting = false ∧ LegalBearoff (mine f1.board) q.die q.src := by
                rcases hsq.legal with h | h
                · obtain ⟨_, _, m3, m4, m5, m6, _⟩ := h
                  have : ¬ pm.src < (q.src.toNat : Int) := fun h => by
                    have := hz _ h; omega
                  rcases b7 with b7 | b7 <;> omega
                · exact h
              obtain ⟨q1, q2, m1, m2, m3, m4, m5, m6, m7⟩ := hqb
              have hle : ¬ pm.src < (q.src.toNat : Int) := fun h => by
                have := hz _ h; omega
              have hup : ∀ i : Nat, q.src < i → cnt (mine f1.board) i = 0 := by
                rcases m7 with m7 | m7
                · rcases b7 with b7 | b7 <;> omega
                · exact m7.2
              have hl' : LegalBearoff (mine f1.board) pm.die q.src := by
                refine ⟨b1, b2, m3, m4, m5, m6, ?_⟩
                by_cases he : q.src + 1 = pm.die
                · exact .inl he
                · right
                  refine ⟨?_, hup⟩
                  rcases b7 with b7 | b7 <;> omega
              have hsq' := bearoff_same (p := ⟨pm.die, q.src, -1, false⟩) hsq q1 rfl rfl (.inr ⟨rfl, rfl, hl'⟩)
              refine ih [⟨pm.die, q.src, -1, false⟩] c f1 (by simp at hn ⊢; omega) g1 (.cons hsq' (.nil _)) (fun x => ?_)
              have := g3 x
              simp only [List.map_cons, List.map_nil, List.count_cons, List.count_nil, beq_iff_eq, Nat.zero_add]
              by_cases hx : pm.die = x
              · rw [if_pos hx]
                rw [if_neg (by omega)] at this
                subst hx; omega
              · rw [if_neg hx]; omega

end Bglib
