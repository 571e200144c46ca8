import Verif.Spec.Dice
import Verif.Lemmas.Moves
namespace Bglib
open Spec

theorem rows_eq {b : Board} (ht : b.onAction = 0 ∨ b.onAction = 1) :
    b.rows = some (mine b, theirs b) := by
  unfold Board.rows mine theirs YOU HIM
  rcases ht with h | h <;> simp [h]

theorem pyGet_cnt {r : List Int} (hr : r.length = 25) {n : Int} (h0 : 0 ≤ n) (h1 : n ≤ 24) :
    pyGet r n = .ok (cnt r n.toNat) := by
  obtain ⟨k, rfl⟩ := Int.eq_ofNat_of_zero_le h0
  have : k < r.length := by omega
  rw [show ((k : Nat) : Int) = ((k : Nat) : Int) from rfl, pyGet_nat this]
  simp [cnt, List.getD_eq_getElem?_getD, this]

/-- There is a chequer on `n` that the rules let the mover touch. -/
def movable (r : List Int) (n : Int) : Prop := cnt r n.toNat ≠ 0 ∧ (cnt r 24 ≠ 0 → n = 24)

instance (r : List Int) (n : Int) : Decidable (movable r n) := by unfold movable; infer_instance

theorem hasChequer_eq {b : Board} (hs : Shape b) {n : Int} (h0 : 0 ≤ n) (h1 : n ≤ 24) :
    b.hasChequerToMove n = .ok (decide (movable (mine b) n)) := by
  unfold Board.hasChequerToMove
  rw [rows_eq hs.turn]
  simp only [bind, Except.bind, pure, Except.pure, BAR]
  rw [pyGet_cnt hs.lm (by omega) (by omega), pyGet_cnt hs.lm h0 h1]
  simp only [movable, show (24 : Int).toNat = 24 from rfl]
  by_cases hb : cnt (mine b) 24 = 0
  · simp [hb]
  · by_cases hn : n = 24
    · subst hn; simp
    · simp [hb, hn]

theorem isOpen_eq {b : Board} (hs : Shape b) {n : Int} (h : isPoint n = true) :
    b.isOpenToLand n = .ok (decide (cnt (theirs b) (23 - n).toNat < 2)) := by
  unfold Board.isOpenToLand
  rw [if_pos h, rows_eq hs.turn]
  simp only [isPoint, decide_eq_true_eq] at h
  simp only [flipPoint]
  rw [pyGet_cnt hs.lt (by omega) (by omega)]
  rfl

theorem isHitting_eq {b : Board} (hs : Shape b) {n : Int} (h : isPoint n = true) :
    b.isHittingToLand n = .ok (decide (cnt (theirs b) (23 - n).toNat = 1)) := by
  unfold Board.isHittingToLand
  rw [if_pos h, rows_eq hs.turn]
  simp only [isPoint, decide_eq_true_eq] at h
  simp only [flipPoint]
  rw [pyGet_cnt hs.lt (by omega) (by omega)]
  rfl

theorem mem_pyRange {a c n : Int} : n ∈ pyRange a c ↔ a ≤ n ∧ n < c := by
  unfold pyRange
  simp only [List.mem_map, List.mem_range]
  constructor
  · rintro ⟨k, h, rfl⟩; omega
  · intro h; exact ⟨(n - a).toNat, by omega, by omega⟩

theorem anyChequer_eq {b : Board} (hs : Shape b) {ns : List Int} (h : ∀ n ∈ ns, 0 ≤ n ∧ n ≤ 24) :
    b.anyChequer ns = .ok (decide (∃ n ∈ ns, movable (mine b) n)) := by
  induction ns with
  | nil => simp [Board.anyChequer]
  | cons n ns ih =>
    unfold Board.anyChequer
    rw [hasChequer_eq hs (h n (by simp)).1 (h n (by simp)).2]
    simp only [bind, Except.bind, pure, Except.pure]
    by_cases hm : movable (mine b) n
    · simp [hm]
    · simp only [hm, decide_false, Bool.false_eq_true, if_false]
      rw [ih (fun k hk => h k (by simp [hk]))]
      simp [hm]

theorem Spec.Valid.shape {b : Board} (h : Valid b) : Shape b := ⟨h.turn, h.mine_row.1, h.theirs_row.1⟩

/-- With the bar empty, touching is presence. -/
theorem movable_iff {r : List Int} (h : cnt r 24 = 0) (n : Int) : movable r n ↔ cnt r n.toNat ≠ 0 := by
  unfold movable; simp [h]

theorem okBearoff_eq {b : Board} (hv : Valid b) {src die : Int} (h0 : 0 ≤ src)
    (hd : 1 ≤ die ∧ die ≤ 6) (hlt : src < die) (hm : movable (mine b) src) :
    ∃ r, b.isOkToBearoffFrom src die = .ok r ∧ (r = true ↔ LegalBearoff (mine b) die src) := by
  have hs := hv.shape
  have hpos : 1 ≤ cnt (mine b) src.toNat := by have := hv.mine_row.2 src.toNat; have := hm.1; omega
  have hbar : cnt (mine b) 24 = 0 := by
    apply Decidable.byContradiction; intro hc
    have := hm.2 hc; omega
  unfold Board.isOkToBearoffFrom
  simp only [bind, Except.bind, pure, Except.pure, BAR]
  split
  · rename_i hlt'
    rw [anyChequer_eq hs (by intro n hn; rw [mem_pyRange] at hn; omega)]
    refine ⟨_, rfl, ?_⟩
    simp only [Bool.not_eq_true', decide_eq_false_iff_not, mem_pyRange, movable_iff hbar]
    unfold LegalBearoff allHome
    constructor
    · intro h
      have hz : ∀ i : Nat, src < i → cnt (mine b) i = 0 := by
        intro i hi
        by_cases hi' : i ≤ 24
        · apply Decidable.byContradiction; intro hc
          exact h ⟨(i : Int), by omega, by simpa using hc⟩
        · exact cnt_out hv.mine_row.1 (by omega)
      refine ⟨hd.1, hd.2, h0, by omega, hpos, fun i hi => hz i (by omega), Or.inr ⟨hlt', hz⟩⟩
    · rintro ⟨_, _, _, _, _, _, h | ⟨_, h⟩⟩
      · omega
      · rintro ⟨n, hn, hc⟩
        exact hc (h n.toNat (by omega))
  · rw [if_pos (by omega)]
    rw [anyChequer_eq hs (by intro n hn; rw [mem_pyRange] at hn; omega), hasChequer_eq hs h0 (by omega)]
    simp only [decide_eq_true_eq]
    have key : (∃ n ∈ pyRange 6 25, movable (mine b) n) ↔ ¬ allHome (mine b) := by
      simp only [mem_pyRange, movable_iff hbar]
      unfold allHome
      constructor
      · rintro ⟨n, hn, hc⟩ h
        exact hc (h n.toNat (by omega))
      · intro h
        apply Classical.byContradiction; intro hc
        apply h
        intro i hi
        by_cases hi' : i ≤ 24
        · apply Decidable.byContradiction; intro hz
          exact hc ⟨(i : Int), by omega, by simpa using hz⟩
        · exact cnt_out hv.mine_row.1 (by omega)
    by_cases hk : ∃ n ∈ pyRange 6 25, movable (mine b) n
    · rw [if_pos hk]
      refine ⟨_, rfl, ?_⟩
      simp only [Bool.false_eq_true, false_iff]
      rintro ⟨_, _, _, _, _, h, _⟩
      exact key.1 hk h
    · rw [if_neg hk]
      refine ⟨_, rfl, ?_⟩
      simp only [hm, decide_true, true_iff]
      refine ⟨hd.1, hd.2, h0, by omega, hpos, ?_, Or.inl (by omega)⟩
      exact Classical.byContradiction (fun hc => hk (key.2 hc))

/-! ### the dice -/
namespace Avail

/-- How many times `d` may still be played. -/
def num (a : Avail) (d : Int) : Nat := (a.count d).getD 0

theorem num_pos_die {a : Avail} {d : Int} (h : 0 < a.num d) : 1 ≤ d ∧ d ≤ 6 := by
  unfold num count at h
  repeat' split at h
  all_goals first | omega | (simp at h)

theorem num_le_len (a : Avail) (d : Int) : a.num d ≤ a.len := by
  unfold num count len
  repeat' split
  all_goals simp; try omega

theorem contains_iff (a : Avail) (d : Int) : a.contains d = .ok true ↔ 0 < a.num d := by
  unfold contains num
  split
  · rename_i n h; simp [h]
  · rename_i h; simp [h]

theorem count_of_die {d : Int} (a : Avail) (h : 1 ≤ d ∧ d ≤ 6) : a.count d = some (a.num d) := by
  have : d = 1 ∨ d = 2 ∨ d = 3 ∨ d = 4 ∨ d = 5 ∨ d = 6 := by omega
  rcases this with h | h | h | h | h | h <;> subst h <;> simp [num, count]

theorem num_put {d : Int} (a : Avail) (h : 1 ≤ d ∧ d ≤ 6) (v : Nat) (e : Int) :
    (a.put d v).num e = if e = d then v else a.num e := by
  have : d = 1 ∨ d = 2 ∨ d = 3 ∨ d = 4 ∨ d = 5 ∨ d = 6 := by omega
  rcases this with h | h | h | h | h | h <;> subst h <;> simp only [num, count, put] <;>
    simp <;> grind

theorem len_put {d : Int} (a : Avail) (h : 1 ≤ d ∧ d ≤ 6) (v : Nat) :
    (a.put d v).len + a.num d = a.len + v := by
  have : d = 1 ∨ d = 2 ∨ d = 3 ∨ d = 4 ∨ d = 5 ∨ d = 6 := by omega
  rcases this with h | h | h | h | h | h <;> subst h <;> simp [num, count, put, len] <;> omega

theorem consume_ok {a : Avail} {d : Int} (h : 0 < a.num d) :
    ∃ a', a.consume d = .ok a' ∧ a'.len + 1 = a.len ∧
      (∀ e, a'.num e = a.num e - if e = d then 1 else 0) := by
  have hd := num_pos_die h
  refine ⟨a.put d (a.num d - 1), ?_, ?_, ?_⟩
  · unfold consume; rw [count_of_die a hd]; simp [h]
  · have := len_put a hd (a.num d - 1); have := num_le_len a d; omega
  · intro e; rw [num_put a hd]; split <;> simp_all

theorem consume_inv {a a' : Avail} {d : Int} (h : a.consume d = .ok a') : 0 < a.num d := by
  unfold consume at h
  split at h
  · rename_i n hn
    split at h
    · simp [num, hn]; omega
    · cases h
  · cases h

theorem add_ok {a : Avail} {d : Int} (h : 1 ≤ d ∧ d ≤ 6) :
    ∃ a', a.add d = .ok a' ∧ a'.len = a.len + 1 ∧
      (∀ e, a'.num e = a.num e + if e = d then 1 else 0) := by
  refine ⟨a.put d (a.num d + 1), ?_, ?_, ?_⟩
  · unfold add; rw [count_of_die a h]
  · have := len_put a h (a.num d + 1); omega
  · intro e; rw [num_put a h]; split <;> simp_all

theorem getMax_some {a : Avail} {d : Int} (h : a.getMax = some d) :
    0 < a.num d ∧ ∀ e, 0 < a.num e → e ≤ d := by
  unfold getMax at h
  constructor
  · repeat' split at h
    all_goals simp only [Option.some.injEq, reduceCtorEq] at h
    all_goals subst h; simp [num, count]; omega
  · intro e he
    have hd := num_pos_die he
    have : e = 1 ∨ e = 2 ∨ e = 3 ∨ e = 4 ∨ e = 5 ∨ e = 6 := by omega
    have key : a.num 6 = a.d6 ∧ a.num 5 = a.d5 ∧ a.num 4 = a.d4 ∧ a.num 3 = a.d3 ∧ a.num 2 = a.d2 ∧
      a.num 1 = a.d1 := by simp [num, count]
    rcases this with r | r | r | r | r | r <;> subst r <;> (repeat' split at h) <;>
      simp only [Option.some.injEq, reduceCtorEq] at h <;> omega

theorem getMax_none {a : Avail} (h : a.getMax = none) (e : Int) : a.num e = 0 := by
  apply Decidable.byContradiction; intro hc
  have he : 0 < a.num e := by omega
  have hd := num_pos_die he
  have : e = 1 ∨ e = 2 ∨ e = 3 ∨ e = 4 ∨ e = 5 ∨ e = 6 := by omega
  have key : a.num 6 = a.d6 ∧ a.num 5 = a.d5 ∧ a.num 4 = a.d4 ∧ a.num 3 = a.d3 ∧ a.num 2 = a.d2 ∧
      a.num 1 = a.d1 := by simp [num, count]
  unfold getMax at h
  repeat' split at h
  all_goals simp only [reduceCtorEq] at h
  rcases this with r | r | r | r | r | r <;> subst r <;> omega

end Avail

/-! ### single steps -/

theorem legalStep_movable {m t : List Int} {die src dest : Int} {hit : Bool}
    (h : LegalStep m t die src dest hit) : 0 ≤ src ∧ src ≤ 24 ∧ movable m src := by
  rcases h with ⟨_, _, _, _, _, h1, h2, _⟩ | ⟨_, _, _, _, _, h4, h1, h2, _⟩
  · exact ⟨by omega, by omega, by omega, h2⟩
  · refine ⟨by omega, by omega, by omega, fun hc => ?_⟩
    have := h2 24 (by omega); omega

open Factory in
theorem sourceLoop_spec {b : Board} (hv : Valid b) {src : Int} (h0 : 0 ≤ src) (h1 : src ≤ 24) :
    ∀ (fuel : Nat) (a : Avail), a.len < fuel → ∃ r, sourceLoop b src fuel a = .ok r ∧
      (∀ pm, r = some pm → pm.src = src ∧ 0 < a.num pm.die ∧
        LegalStep (mine b) (theirs b) pm.die pm.src pm.dest pm.isHitting ∧
        ∀ e, 0 < a.num e → pm.die < e → ∀ dest hit, ¬ LegalStep (mine b) (theirs b) e src dest hit) ∧
      (r = none → ∀ e, 0 < a.num e → ∀ dest hit, ¬ LegalStep (mine b) (theirs b) e src dest hit) := by
  have hs := hv.shape
  intro fuel
  induction fuel with
  | zero => intro a h; omega
  | succ fuel ih =>
    intro a hf
    unfold sourceLoop
    cases hm : a.getMax with
    | none =>
      refine ⟨none, rfl, by simp, fun _ e he => ?_⟩
      have := Avail.getMax_none hm e; omega
    | some die =>
      obtain ⟨hp, hmax⟩ := Avail.getMax_some hm
      have hd := Avail.num_pos_die hp
      simp only
      rw [hasChequer_eq hs h0 h1]
      by_cases hnmv : ¬ movable (mine b) src
      · simp only [hnmv, decide_false]
        have hmv := hnmv
        exact ⟨none, rfl, by simp, fun _ e _ dest hit hl => hmv (legalStep_movable hl).2.2⟩
      have hmv : movable (mine b) src := Decidable.not_not.1 hnmv
      simp only [hmv, decide_true]
      -- what is left after this die was found useless
      have next : (∀ dest hit, ¬ LegalStep (mine b) (theirs b) die src dest hit) →
          ∃ a', a.consume die = .ok a' ∧ ∃ r, sourceLoop b src fuel a' = .ok r ∧
          (∀ pm, r = some pm → pm.src = src ∧ 0 < a.num pm.die ∧
            LegalStep (mine b) (theirs b) pm.die pm.src pm.dest pm.isHitting ∧
            ∀ e, 0 < a.num e → pm.die < e → ∀ dest hit,
              ¬ LegalStep (mine b) (theirs b) e src dest hit) ∧
          (r = none → ∀ e, 0 < a.num e → ∀ dest hit,
            ¬ LegalStep (mine b) (theirs b) e src dest hit) := by
        intro hbad
        obtain ⟨a', ha', hl, hn⟩ := Avail.consume_ok hp
        obtain ⟨r, hr, hs1, hs2⟩ := ih a' (by omega)
        refine ⟨a', ha', r, hr, ?_, ?_⟩
        · intro pm hpm
          obtain ⟨e1, e2, e3, e4⟩ := hs1 pm hpm
          refine ⟨e1, by have := hn pm.die; omega, e3, ?_⟩
          intro e he hlt dest hit
          by_cases hed : e = die
          · subst hed; exact hbad dest hit
          · exact e4 e (by have := hn e; simp only [hed, if_false] at this; omega) hlt dest hit
        · intro hrn e he dest hit
          by_cases hed : e = die
          · subst hed; exact hbad dest hit
          · exact hs2 hrn e (by have := hn e; simp only [hed, if_false] at this; omega) dest hit
      have maxim : ∀ e, 0 < a.num e → die < e → ∀ dest hit,
          ¬ LegalStep (mine b) (theirs b) e src dest hit := by
        intro e he hlt; have := hmax e he; omega
      by_cases hneg : src - die < 0
      · rw [if_pos hneg]
        obtain ⟨r, hr, hiff⟩ := okBearoff_eq hv h0 hd (by omega) hmv
        rw [hr]
        cases r with
        | true =>
          refine ⟨_, rfl, ?_, by simp⟩
          intro pm hpm
          obtain rfl := Option.some.inj hpm
          exact ⟨rfl, hp, Or.inr ⟨rfl, rfl, hiff.1 rfl⟩, maxim⟩
        | false =>
          have hbad : ∀ dest hit, ¬ LegalStep (mine b) (theirs b) die src dest hit := by
            rintro dest hit (⟨_, _, _, _, _, _⟩ | ⟨_, _, h⟩)
            · omega
            · exact absurd (hiff.2 h) (by simp)
          obtain ⟨a', ha', r, hr, q1, q2⟩ := next hbad
          simp only [ha']
          rw [if_pos (by have := Avail.num_le_len a die; omega)]
          exact ⟨r, hr, q1, q2⟩
      · rw [if_neg hneg]
        have hpt : isPoint (src - die) = true := by simp [isPoint]; omega
        rw [if_pos hpt, isOpen_eq hs hpt, isHitting_eq hs hpt]
        by_cases ho : cnt (theirs b) (23 - (src - die)).toNat < 2
        · simp only [ho, decide_true]
          refine ⟨_, rfl, ?_, by simp⟩
          intro pm hpm
          obtain rfl := Option.some.inj hpm
          refine ⟨rfl, hp, Or.inl ⟨hd.1, hd.2, by simp only; omega, h1, rfl, ?_, hmv.2, ho, by simp⟩, maxim⟩
          have := hv.mine_row.2 src.toNat; have := hmv.1; simp only; omega
        · simp only [ho, decide_false]
          have hbad : ∀ dest hit, ¬ LegalStep (mine b) (theirs b) die src dest hit := by
            rintro dest hit (⟨_, _, _, _, hde, _, _, h, _⟩ | ⟨_, _, h⟩)
            · subst hde; exact ho h
            · have := h.2.2.2.2.2.2; omega
          obtain ⟨a', ha', r, hr, q1, q2⟩ := next hbad
          simp only [ha']
          exact ⟨r, hr, q1, q2⟩

/-- A negative index counts from the end of the row. -/
theorem hasChequer_neg {b : Board} (hs : Shape b) {n : Int} (h0 : -25 ≤ n) (h1 : n < 0) :
    b.hasChequerToMove n = .ok (decide (cnt (mine b) 24 = 0 ∧ cnt (mine b) (n + 25).toNat ≠ 0)) := by
  have hg : pyGet (mine b) n = .ok (cnt (mine b) (n + 25).toNat) := by
    have hlt : (n + 25).toNat < (mine b).length := by rw [hs.lm]; omega
    unfold pyGet pyIdx
    rw [if_neg (by omega), hs.lm, if_pos (by simp; omega)]
    simp only [cnt, List.getD_eq_getElem?_getD]
    rw [show (n + ((25 : Nat) : Int)).toNat = (n + 25).toNat from rfl, List.getElem?_eq_getElem hlt]
    rfl
  unfold Board.hasChequerToMove
  rw [rows_eq hs.turn]
  simp only [bind, Except.bind, pure, Except.pure]
  rw [pyGet_cnt hs.lm (by unfold BAR; omega) (by unfold BAR; omega), hg]
  simp only [show BAR.toNat = 24 from rfl]
  by_cases hb : cnt (mine b) 24 = 0
  · simp [hb]
  · simp only [hb, if_false]
    rw [if_neg (by unfold BAR; omega)]
    simp

theorem hasChequer_far {b : Board} (hs : Shape b) {n : Int} (h : n < -25 ∨ 24 < n) :
    b.hasChequerToMove n ≠ .ok true := by
  have hg : pyGet (mine b) n = .error .indexError := by
    unfold pyGet pyIdx
    rw [hs.lm]
    rcases h with h | h
    · rw [if_neg (by omega), if_neg (by simp; omega)]
    · rw [if_pos (by omega), if_neg (by simp; omega)]
  unfold Board.hasChequerToMove
  rw [rows_eq hs.turn]
  simp only [bind, Except.bind, pure, Except.pure]
  rw [pyGet_cnt hs.lm (by unfold BAR; omega) (by unfold BAR; omega), hg]
  simp only [show BAR.toNat = 24 from rfl]
  by_cases hb : cnt (mine b) 24 = 0
  · simp [hb]
  · simp only [hb, if_false]
    rw [if_neg (by unfold BAR; omega)]
    simp

theorem anyChequer_true {b : Board} {ns : List Int}
    (h : ∀ n ∈ ns, ∃ c, b.hasChequerToMove n = .ok c) (he : ∃ n ∈ ns, b.hasChequerToMove n = .ok true) :
    b.anyChequer ns = .ok true := by
  induction ns with
  | nil => simp at he
  | cons n ns ih =>
    unfold Board.anyChequer
    obtain ⟨c, hc⟩ := h n (by simp)
    rw [hc]
    simp only [bind, Except.bind, pure, Except.pure]
    cases c with
    | true => simp
    | false =>
      simp only [Bool.false_eq_true, if_false]
      apply ih (fun k hk => h k (by simp [hk]))
      obtain ⟨k, hk, hk'⟩ := he
      simp only [List.mem_cons] at hk
      rcases hk with rfl | hk
      · rw [hc] at hk'; simp at hk'
      · exact ⟨k, hk, hk'⟩

/-- Outside the board nothing is ever suggested. -/
theorem sourceLoop_out {b : Board} (hv : Valid b) {src : Int} (h : src < 0 ∨ 24 < src) :
    ∀ (fuel : Nat) (a : Avail) (pm : PartialMove), Factory.sourceLoop b src fuel a ≠ .ok (some pm) := by
  have hs := hv.shape
  intro fuel
  induction fuel with
  | zero => intro a pm; simp [Factory.sourceLoop]
  | succ fuel ih =>
    intro a pm
    unfold Factory.sourceLoop
    cases hm : a.getMax with
    | none => simp
    | some die =>
      have hd := Avail.num_pos_die (Avail.getMax_some hm).1
      simp only
      cases hc : b.hasChequerToMove src with
      | error e => simp
      | ok c =>
        cases c with
        | false => simp
        | true =>
          have hr : -25 ≤ src ∧ src < 0 := by
            apply Classical.byContradiction; intro hn
            exact hasChequer_far hs (by omega) hc
          have hc2 := hc
          rw [hasChequer_neg hs hr.1 hr.2] at hc2
          simp only [Except.ok.injEq, decide_eq_true_eq] at hc2
          simp only
          rw [if_pos (by omega)]
          have hok : b.isOkToBearoffFrom src die = .ok false := by
            unfold Board.isOkToBearoffFrom
            rw [if_pos (by omega), anyChequer_true]
            · rfl
            · intro n hn
              rw [mem_pyRange, show BAR = 24 from rfl] at hn
              by_cases h0 : 0 ≤ n
              · exact ⟨_, hasChequer_eq hs h0 (by omega)⟩
              · exact ⟨_, hasChequer_neg hs (by omega) (by omega)⟩
            · refine ⟨src + 25, by rw [mem_pyRange, show BAR = 24 from rfl]; omega, ?_⟩
              rw [hasChequer_eq hs (by omega) (by omega)]
              simp only [movable_iff hc2.1, Except.ok.injEq, decide_eq_true_eq]
              exact hc2.2
          rw [hok]
          simp only
          cases a.consume die with
          | error e => simp
          | ok a' =>
            simp only
            split
            · exact ih a' pm
            · simp


theorem count_diceLeft (a : Avail) (d : Int) : (diceLeft a).count d = a.num d := by
  unfold diceLeft
  simp only [List.count_append, List.count_replicate]
  by_cases h : 1 ≤ d ∧ d ≤ 6
  · have : d = 1 ∨ d = 2 ∨ d = 3 ∨ d = 4 ∨ d = 5 ∨ d = 6 := by omega
    rcases this with h | h | h | h | h | h <;> subst h <;> simp [Avail.num, Avail.count]
  · have hz : a.num d = 0 := by
      apply Decidable.byContradiction; intro hc
      exact h (Avail.num_pos_die (Nat.pos_of_ne_zero hc))
    rw [hz]
    have e1 : ¬ (1 : Int) = d := by omega
    have e2 : ¬ (2 : Int) = d := by omega
    have e3 : ¬ (3 : Int) = d := by omega
    have e4 : ¬ (4 : Int) = d := by omega
    have e5 : ¬ (5 : Int) = d := by omega
    have e6 : ¬ (6 : Int) = d := by omega
    simp [e1, e2, e3, e4, e5, e6]

theorem mem_diceLeft (a : Avail) (d : Int) : d ∈ diceLeft a ↔ 0 < a.num d := by
  rw [← List.count_pos_iff, count_diceLeft]

/-! ### bearing off towards a destination -/

theorem firstChequer_eq {b : Board} (hs : Shape b) {ns : List Int} (h : ∀ n ∈ ns, 0 ≤ n ∧ n ≤ 24) :
    ∃ r, b.firstChequer ns = .ok r ∧ (r = none → ∀ n ∈ ns, ¬ movable (mine b) n) ∧
      (∀ n, r = some n → ∃ l1 l2, ns = l1 ++ n :: l2 ∧ movable (mine b) n ∧
        ∀ k ∈ l1, ¬ movable (mine b) k) := by
  induction ns with
  | nil => exact ⟨none, rfl, by simp, by simp⟩
  | cons n ns ih =>
    unfold Board.firstChequer
    rw [hasChequer_eq hs (h n (by simp)).1 (h n (by simp)).2]
    simp only [bind, Except.bind, pure, Except.pure]
    by_cases hm : movable (mine b) n
    · simp only [hm, decide_true, if_true]
      refine ⟨_, rfl, by simp, ?_⟩
      intro k hk
      obtain rfl := Option.some.inj hk
      exact ⟨[], ns, rfl, hm, by simp⟩
    · simp only [hm, decide_false, Bool.false_eq_true, if_false]
      obtain ⟨r, hr, h1, h2⟩ := ih (fun k hk => h k (by simp [hk]))
      refine ⟨r, hr, ?_, ?_⟩
      · intro hn k hk
        simp only [List.mem_cons] at hk
        rcases hk with rfl | hk
        · exact hm
        · exact h1 hn k hk
      · intro k hk
        obtain ⟨l1, l2, e, m1, m2⟩ := h2 k hk
        refine ⟨n :: l1, l2, by rw [e]; rfl, m1, ?_⟩
        intro j hj
        simp only [List.mem_cons] at hj
        rcases hj with rfl | hj
        · exact hm
        · exact m2 j hj

theorem findSrc_spec {b : Board} (hv : Valid b) {die : Int} (hd : 1 ≤ die ∧ die ≤ 6) :
    ∃ r, b.findSrcOfBearoffWith die = .ok r ∧ (∀ src, r = some src → LegalBearoff (mine b) die src) ∧
      (r = none → ∀ src, LegalBearoff (mine b) die src → src = 0 ∧ die ≠ 1) := by
  have hs := hv.shape
  have rng : ∀ lo hi : Int, 0 ≤ lo → hi ≤ 25 → ∀ n ∈ pyRange lo hi, 0 ≤ n ∧ n ≤ 24 := by
    intro lo hi h1 h2 n hn; rw [mem_pyRange] at hn; omega
  have nn := hv.mine_row.2
  have dl : ∀ i j : Nat, i = j → cnt (mine b) i = cnt (mine b) j := by rintro i j rfl; rfl
  unfold Board.findSrcOfBearoffWith
  simp only [bind, Except.bind, pure, Except.pure]
  rw [anyChequer_eq hs (rng 6 25 (by omega) (by omega))]
  simp only [decide_eq_true_eq]
  by_cases hk : ∃ n ∈ pyRange 6 25, movable (mine b) n
  · rw [if_pos hk]
    refine ⟨none, rfl, by simp, ?_⟩
    rintro - src ⟨_, _, _, _, _, hall, _⟩
    obtain ⟨n, hn, hm⟩ := hk
    rw [mem_pyRange] at hn
    exact absurd (hall n.toNat (by omega)) hm.1
  · rw [if_neg hk]
    have hall0 : cnt (mine b) 24 = 0 := by
      apply Decidable.byContradiction; intro hc
      exact hk ⟨24, by rw [mem_pyRange]; omega, hc, fun _ => rfl⟩
    have hall : allHome (mine b) := by
      intro i hi
      by_cases hi' : i ≤ 24
      · apply Decidable.byContradiction; intro hc
        exact hk ⟨(i : Int), by rw [mem_pyRange]; omega, by simpa using hc, fun h => absurd hall0 h⟩
      · exact cnt_out hv.mine_row.1 (by omega)
    rw [hasChequer_eq hs (by omega) (by omega)]
    simp only [movable_iff hall0, decide_eq_true_eq]
    by_cases hex : cnt (mine b) (die - 1).toNat ≠ 0
    · rw [if_pos hex]
      refine ⟨_, rfl, ?_, by simp⟩
      intro src hsrc
      obtain rfl := Option.some.inj hsrc
      have := nn (die - 1).toNat
      exact ⟨hd.1, hd.2, by omega, by omega, by omega, hall, Or.inl (by omega)⟩
    · rw [if_neg hex]
      rw [anyChequer_eq hs (rng (die - 1) 6 (by omega) (by omega))]
      simp only [decide_eq_true_eq]
      have hiff : (∃ n ∈ pyRange (die - 1) 6, movable (mine b) n) ↔
          ∃ n, (die - 1 ≤ n ∧ n < 6) ∧ cnt (mine b) n.toNat ≠ 0 := by
        simp only [movable_iff hall0, mem_pyRange]
      by_cases hup' : ∃ n ∈ pyRange (die - 1) 6, movable (mine b) n
      · rw [if_pos hup']
        have hup := hiff.1 hup'
        refine ⟨none, rfl, by simp, ?_⟩
        rintro - src ⟨_, _, h0, _, hp, _, h | ⟨h, hz⟩⟩
        · have : src = die - 1 := by omega
          subst this; omega
        · obtain ⟨n, hn, hc⟩ := hup
          exact absurd (hz n.toNat (by omega)) hc
      · rw [if_neg hup']
        have hup := fun h => hup' (hiff.2 h)
        have hz : ∀ i : Nat, die - 1 ≤ i → cnt (mine b) i = 0 := by
          intro i hi
          by_cases h6 : i < 6
          · apply Decidable.byContradiction; intro hc
            exact hup ⟨(i : Int), by omega, by simpa using hc⟩
          · exact hall i (by omega)
        obtain ⟨r, hr, h1, h2⟩ := firstChequer_eq hs (ns := (pyRange 1 (die + 1)).reverse)
          (by intro n hn; rw [List.mem_reverse, mem_pyRange] at hn; omega)
        refine ⟨r, hr, ?_, ?_⟩
        · intro src hsrc
          obtain ⟨l1, l2, e, m1, m2⟩ := h2 src hsrc
          have hmem : src ∈ (pyRange 1 (die + 1)).reverse := by rw [e]; simp
          rw [List.mem_reverse, mem_pyRange] at hmem
          have hpos : 1 ≤ cnt (mine b) src.toNat := by have := nn src.toNat; have := m1.1; omega
          have hlt : src < die - 1 := by
            apply Decidable.byContradiction; intro hc
            have := hz src.toNat (by omega); omega
          refine ⟨hd.1, hd.2, by omega, by omega, hpos, hall, Or.inr ⟨by omega, ?_⟩⟩
          intro i hi
          by_cases hi' : (i : Int) ≤ die
          · -- `i` comes before `src` in the descending range
            have him : (i : Int) ∈ (pyRange 1 (die + 1)).reverse := by
              rw [List.mem_reverse, mem_pyRange]; omega
            have hsorted : (pyRange 1 (die + 1)).reverse.Pairwise (· > ·) := by
              rw [List.pairwise_reverse]
              unfold pyRange
              rw [List.pairwise_map]
              refine List.Pairwise.imp ?_ List.pairwise_lt_range
              intro x y hxy; omega
            rw [e] at him hsorted
            rw [List.pairwise_append] at hsorted
            obtain ⟨_, q2, _⟩ := hsorted
            rw [List.pairwise_cons] at q2
            simp only [List.mem_append, List.mem_cons] at him
            rcases him with him | him | him
            · have := m2 _ him
              rw [movable_iff hall0] at this
              simpa using this
            · omega
            · have := q2.1 _ him; omega
          · exact hz i (by omega)
        · intro hn src
          rintro ⟨_, _, h0, _, hp, _, h | ⟨h, _⟩⟩
          · have : src = die - 1 := by omega
            subst this; omega
          · by_cases hs0 : src = 0
            · exact ⟨hs0, by omega⟩
            · have := h1 hn src (by rw [List.mem_reverse, mem_pyRange]; omega)
              rw [movable_iff hall0] at this
              omega

end Bglib
