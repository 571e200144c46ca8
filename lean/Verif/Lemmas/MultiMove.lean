import Verif.Lemmas.MoveFactory
namespace Bglib
open Spec Factory

/-! ### towards a destination -/

theorem destLoop_sound {b : Board} (hv : Valid b) (dest : Int) :
    ∀ (fuel : Nat) (a : Avail) (pm : PartialMove), destLoop b dest fuel a = .ok (some pm) →
      pm.dest = dest ∧ 0 < a.num pm.die ∧
        LegalStep (mine b) (theirs b) pm.die pm.src pm.dest pm.isHitting := by
  have hs := hv.shape
  intro fuel
  induction fuel with
  | zero => intro a pm h; simp [destLoop] at h
  | succ fuel ih =>
    intro a pm h
    unfold destLoop at h
    cases hm : a.getMax with
    | none => simp [hm] at h
    | some die =>
      obtain ⟨hp, hmax⟩ := Avail.getMax_some hm
      have hd := Avail.num_pos_die hp
      simp only [hm] at h
      have next : ∀ {x : Py (Option PartialMove)}, x = (match a.consume die with
          | .error e => .error e
          | .ok a' => destLoop b dest fuel a') → x = .ok (some pm) →
          pm.dest = dest ∧ 0 < a.num pm.die ∧
            LegalStep (mine b) (theirs b) pm.die pm.src pm.dest pm.isHitting := by
        intro x hx hxx
        obtain ⟨a', ha', hl, hn⟩ := Avail.consume_ok hp
        rw [ha'] at hx
        obtain ⟨q1, q2, q3⟩ := ih a' pm (by rw [← hxx, hx])
        exact ⟨q1, by have := hn pm.die; omega, q3⟩
      split at h
      · rename_i hdest
        subst hdest
        obtain ⟨r, hr, f1, _⟩ := findSrc_spec hv hd
        rw [hr] at h
        cases r with
        | some src =>
          simp only [Except.ok.injEq, Option.some.injEq] at h
          subst h
          exact ⟨rfl, hp, Or.inr ⟨rfl, rfl, f1 src rfl⟩⟩
        | none => exact next rfl h
      · split at h
        · rename_i hpt
          rw [isOpen_eq hs hpt] at h
          have hpt' := hpt
          simp only [isPoint, decide_eq_true_eq] at hpt'
          by_cases ho : cnt (theirs b) (23 - dest).toNat < 2
          · simp only [ho, decide_true] at h
            cases hc : b.hasChequerToMove (dest + die) with
            | error e => simp [hc] at h
            | ok c =>
              rw [hc] at h
              cases c with
              | false => exact next rfl h
              | true =>
                have h24 : dest + die ≤ 24 := by
                  apply Decidable.byContradiction; intro hcc
                  exact hasChequer_far hs (by omega) hc
                rw [hasChequer_eq hs (by omega) h24] at hc
                simp only [Except.ok.injEq, decide_eq_true_eq] at hc
                simp only [isHitting_eq hs hpt, Except.ok.injEq, Option.some.injEq] at h
                subst h
                refine ⟨rfl, hp, Or.inl ⟨hd.1, hd.2, by simp only; omega, h24, by simp only; omega,
                  ?_, hc.2, ho, by simp⟩⟩
                have := hv.mine_row.2 (dest + die).toNat; have := hc.1; simp only; omega
          · simp only [ho, decide_false] at h
            simp at h
        · simp at h

theorem destLoop_complete {b : Board} (hv : Valid b) {dest : Int} (h0 : -1 ≤ dest)
    (h1 : dest ≤ 18 ∨ (dest ≤ 23 ∧ cnt (mine b) 24 ≠ 0)) :
    ∀ (fuel : Nat) (a : Avail), a.len < fuel → ∃ r, destLoop b dest fuel a = .ok r ∧
      (r = none → ∀ e src hit, 0 < a.num e → LegalStep (mine b) (theirs b) e src dest hit →
        dest = -1 ∧ src = 0 ∧ e ≠ 1) := by
  have hs := hv.shape
  intro fuel
  induction fuel with
  | zero => intro a h; omega
  | succ fuel ih =>
    intro a hf
    unfold destLoop
    cases hm : a.getMax with
    | none =>
      refine ⟨none, rfl, fun _ e src hit he => ?_⟩
      have := Avail.getMax_none hm e; omega
    | some die =>
      obtain ⟨hp, hmax⟩ := Avail.getMax_some hm
      have hd := Avail.num_pos_die hp
      simp only
      have next : (∀ src hit, LegalStep (mine b) (theirs b) die src dest hit →
          dest = -1 ∧ src = 0 ∧ die ≠ 1) → ∃ r, (match a.consume die with
          | Except.error e => Except.error e
          | Except.ok a' => destLoop b dest fuel a') = .ok r ∧
          (r = none → ∀ e src hit, 0 < a.num e → LegalStep (mine b) (theirs b) e src dest hit →
            dest = -1 ∧ src = 0 ∧ e ≠ 1) := by
        intro hbad
        obtain ⟨a', ha', hl, hn⟩ := Avail.consume_ok hp
        obtain ⟨r, hr, q⟩ := ih a' (by omega)
        refine ⟨r, by rw [ha']; exact hr, ?_⟩
        intro hrn e src hit he hl
        by_cases hed : e = die
        · subst hed; exact hbad src hit hl
        · exact q hrn e src hit (by have := hn e; simp only [hed, if_false] at this; omega) hl
      split
      · rename_i hdest
        subst hdest
        obtain ⟨r, hr, f1, f2⟩ := findSrc_spec hv hd
        rw [hr]
        cases r with
        | some src => exact ⟨_, rfl, by simp⟩
        | none =>
          apply next
          rintro src hit (⟨_, _, h, _⟩ | ⟨_, _, h⟩)
          · omega
          · exact ⟨rfl, f2 rfl src h⟩
      · rename_i hne
        have hpt : isPoint dest = true := by simp [isPoint]; omega
        rw [if_pos hpt, isOpen_eq hs hpt]
        by_cases ho : cnt (theirs b) (23 - dest).toNat < 2
        · simp only [ho, decide_true]
          by_cases h24 : dest + die ≤ 24
          · rw [hasChequer_eq hs (by omega) h24]
            by_cases hmv : movable (mine b) (dest + die)
            · simp only [hmv, decide_true, isHitting_eq hs hpt]
              exact ⟨_, rfl, by simp⟩
            · simp only [hmv, decide_false]
              apply next
              intro src hit hl
              have := legalStep_movable hl
              rcases hl with ⟨_, _, _, _, hde, _⟩ | ⟨h, _⟩
              · have : src = dest + die := by omega
                subst this; exact absurd this.2.2 hmv
              · omega
          · have hb : cnt (mine b) 24 ≠ 0 := by omega
            have hc : b.hasChequerToMove (dest + die) = .ok false := by
              unfold Board.hasChequerToMove
              rw [rows_eq hs.turn]
              simp only [bind, Except.bind, pure, Except.pure]
              rw [pyGet_cnt hs.lm (by unfold BAR; omega) (by unfold BAR; omega)]
              simp only [show BAR.toNat = 24 from rfl, hb, if_false]
              rw [if_neg (by unfold BAR; omega)]
            rw [hc]
            apply next
            intro src hit hl
            rcases hl with ⟨_, _, _, _, hde, _⟩ | ⟨h, _⟩
            · omega
            · omega
        · simp only [ho, decide_false]
          refine ⟨none, rfl, ?_⟩
          intro _ e src hit _ hl
          rcases hl with ⟨_, _, _, _, _, _, _, h, _⟩ | ⟨h, _⟩
          · exact absurd h ho
          · omega

/-! ### combined moves -/

/-- All movements go forward. -/
def Forward (pms : List PartialMove) : Prop := ∀ p ∈ pms, p.dest < p.src

theorem removeInvertible_none {pms : List PartialMove} {pm : PartialMove} (h : Forward pms)
    (hp : pm.dest < pm.src) : removeInvertible pm pms = none := by
  induction pms with
  | nil => rfl
  | cons q qs ih =>
    unfold removeInvertible
    have hq := h q (by simp)
    rw [if_neg (by simp [PartialMove.areInvertible]; omega), ih (fun p hp => h p (by simp [hp]))]
    rfl

theorem moveAppend_forward {pms : List PartialMove} {pm : PartialMove} (h : Forward pms)
    (hp : pm.dest < pm.src) : moveAppend pms pm = pms ++ [pm] := by
  unfold moveAppend
  rw [removeInvertible_none (fun p hp => h p (by simpa using hp)) hp]

theorem makePartialMove_mv {b : Board} {pm : PartialMove} (hs : Shape b) (hp : InBoard pm) :
    b.makePartialMove pm = .ok (mv b pm) := makePartialMove_eq hs.turn hs.lm hs.lt hp

theorem inBoard_inverse {pm : PartialMove} (h : InBoard pm) (hlt : pm.dest < pm.src) : InBoard pm.inverse := by
  unfold InBoard PartialMove.inverse at *
  simp only
  omega

theorem fromSource_none_or {b : Board} (hv : Valid b) (a : Avail) (src : Int) (pm : PartialMove)
    (h : fromSource b a src = .ok (some pm)) :
    0 ≤ src ∧ src ≤ 24 ∧ pm.src = src ∧ 0 < a.num pm.die ∧
      LegalStep (mine b) (theirs b) pm.die pm.src pm.dest pm.isHitting ∧
      ∀ e, 0 < a.num e → pm.die < e → ∀ dest hit, ¬ LegalStep (mine b) (theirs b) e src dest hit := by
  have hr : 0 ≤ src ∧ src ≤ 24 := by
    apply Classical.byContradiction; intro hn
    exact sourceLoop_out hv (by omega) _ a pm h
  obtain ⟨r, hr', q, _⟩ := sourceLoop_spec hv hr.1 hr.2 (a.len + 1) a (by omega)
  unfold fromSource at h
  rw [hr'] at h
  simp only [Except.ok.injEq] at h
  exact ⟨hr.1, hr.2, q pm h⟩

theorem multiLoop_spec {dest : Int} : ∀ (fuel : Nat) (b : Board) (src : Int) (a : Avail)
    (ms : List PartialMove), Valid b → a.len < fuel → Forward ms →
    ∃ res, multiLoop b dest fuel src a ms = ⟨b, res⟩ ∧
      (dest < src → -1 ≤ src → src ≤ 24 → ∃ r, res = .ok r) ∧
      (∀ pms, res = .ok (some pms) → ∃ c, pms = ms ++ c ∧ c ≠ [] ∧ Leads c src dest ∧
        UsesDice c (diceLeft a) ∧ ∃ b', PlayTo b c b') := by
  intro fuel
  induction fuel with
  | zero => intro b src a ms _ h; omega
  | succ fuel ih =>
    intro b src a ms hv hf hfw
    unfold multiLoop
    by_cases hgt : ¬ src > dest
    · rw [if_pos hgt]
      exact ⟨_, rfl, by intro h; omega, by simp⟩
    rw [if_neg hgt]
    have hok : -1 ≤ src → src ≤ 24 → ∃ r, fromSource b a src = .ok r := by
      intro h1 h2
      by_cases h0 : 0 ≤ src
      · obtain ⟨r, hr, _⟩ := sourceLoop_spec hv h0 h2 (a.len + 1) a (by omega)
        exact ⟨r, hr⟩
      · have hm1 : src = -1 := by omega
        subst hm1
        unfold fromSource sourceLoop
        cases a.getMax with
        | none => exact ⟨none, rfl⟩
        | some die =>
          simp only
          rw [hasChequer_neg hv.shape (by omega) (by omega)]
          rw [show decide (cnt (mine b) 24 = 0 ∧ cnt (mine b) (-1 + 25 : Int).toNat ≠ 0) = false by
            simp [show (-1 + 25 : Int).toNat = 24 from rfl]]
          exact ⟨none, rfl⟩
    cases hfs : fromSource b a src with
    | error e =>
      refine ⟨_, rfl, ?_, by simp⟩
      intro _ h1 h2
      obtain ⟨r, hr⟩ := hok h1 h2
      rw [hfs] at hr; cases hr
    | ok r =>
      cases r with
      | none => exact ⟨_, rfl, fun _ _ _ => ⟨none, rfl⟩, by simp⟩
      | some pm =>
        obtain ⟨s0, s1, hsrc, hnum, hleg, _⟩ := fromSource_none_or hv a src pm hfs
        obtain ⟨hin, hun, hlt, hs0⟩ := LegalStep.inBoard hleg
        simp only
        rw [if_neg (by simp [hsrc])]
        obtain ⟨b1, hb1, hst, hv1, _⟩ := step_exists hv hleg
        obtain ⟨a', ha', hl, hn⟩ := Avail.consume_ok hnum
        by_cases hdd : pm.dest = dest
        · rw [if_pos hdd, moveAppend_forward hfw hlt]
          refine ⟨_, rfl, fun _ _ _ => ⟨_, rfl⟩, ?_⟩
          intro pms hp
          simp only [Except.ok.injEq, Option.some.injEq] at hp
          refine ⟨[pm], hp.symm, by simp, ⟨hsrc, hdd⟩, ?_, b1, .cons hst (.nil _)⟩
          intro d
          rw [count_diceLeft]
          by_cases hde : pm.die = d
          · subst hde; simp; omega
          · simp [List.count_cons, hde]
        · rw [if_neg hdd]
          simp only [ha']
          by_cases hfur : pm.dest > dest
          · rw [if_pos hfur, hb1]
            simp only
            have hfw' : Forward (ms ++ [pm]) := by
              intro p hp
              simp only [List.mem_append, List.mem_singleton] at hp
              rcases hp with hp | rfl
              · exact hfw p hp
              · exact hlt
            obtain ⟨res, he, g1, g2⟩ := ih b1 pm.dest a' (moveAppend ms pm) hv1 (by omega)
              (by rw [moveAppend_forward hfw hlt]; exact hfw')
            rw [he]
            have hback : b1.makePartialMove pm.inverse = .ok b := by
              have e1 := makePartialMove_mv hv.shape hin
              rw [hb1] at e1
              simp only [Except.ok.injEq] at e1
              rw [makePartialMove_mv hv1.shape (inBoard_inverse hin hlt), e1, mv_inverse _ _ (by omega)]
            obtain ⟨r, hr⟩ := g1 hfur hin.2.2.1 (by omega)
            subst hr
            simp only [hback]
            refine ⟨_, rfl, fun _ _ _ => ⟨_, rfl⟩, ?_⟩
            intro pms hp
            simp only [Except.ok.injEq] at hp
            obtain ⟨c, hc, hcn, hlead, hu, b', hpl⟩ := g2 pms (by rw [hp])
            rw [moveAppend_forward hfw hlt] at hc
            refine ⟨pm :: c, by rw [hc]; simp, by simp, ⟨hsrc, hlead⟩, ?_, b', .cons hst hpl⟩
            intro d
            have h1 := hu d
            rw [count_diceLeft] at h1 ⊢
            have h2 := hn d
            by_cases hde : pm.die = d
            · subst hde; simp at h2 ⊢; omega
            · have : ¬ d = pm.die := fun h => hde h.symm
              simp only [this, if_false] at h2
              simp [List.count_cons, hde]; omega
          · rw [if_neg hfur]
            obtain ⟨res, he, g1, g2⟩ := ih b src a' ms hv (by omega) hfw
            refine ⟨res, he, g1, ?_⟩
            intro pms hp
            obtain ⟨c, hc, hcn, hlead, hu, hpl⟩ := g2 pms hp
            refine ⟨c, hc, hcn, hlead, ?_, hpl⟩
            intro d
            have h1 := hu d
            rw [count_diceLeft] at h1 ⊢
            have h2 := hn d
            omega

end Bglib
