import Verif.Lemmas.Pickup
/-
With doubles the order of play never matters for the number of movements: a play that is shorter than
another legal one can be prolonged.
-/
namespace Bglib
open Spec

theorem perm_of_count_le {l1 l2 : List Int} (h : ∀ x, l1.count x ≤ l2.count x) :
    ∃ l3, l2.Perm (l1 ++ l3) := by
  induction l1 generalizing l2 with
  | nil => exact ⟨l2, .refl _⟩
  | cons x l1 ih =>
    have hx : x ∈ l2 := by
      have := h x
      rw [List.count_cons_self] at this
      exact List.count_pos_iff.1 (by omega)
    obtain ⟨l3, h3⟩ := ih (l2 := l2.erase x) (by
      intro y
      have := h y
      rw [List.count_erase]
      rw [List.count_cons] at this
      by_cases e : x = y
      · subst e; simp at this ⊢; omega
      · have e' : ¬ y = x := fun e' => e e'.symm
        simp [e] at this ⊢; omega)
    exact ⟨l3, (List.perm_cons_erase hx).trans (h3.cons x)⟩

theorem first_excess {p q : List Int} (h : ¬ ∀ x, p.count x ≤ q.count x) :
    ∃ p1 x p2, p = p1 ++ x :: p2 ∧ (∀ y, p1.count y ≤ q.count y) ∧ p1.count x = q.count x := by
  have key : ∀ (p2 p1 : List Int), (∀ y, p1.count y ≤ q.count y) →
      ¬ (∀ y, (p1 ++ p2).count y ≤ q.count y) →
      ∃ r1 x r2, p1 ++ p2 = r1 ++ x :: r2 ∧ (∀ y, r1.count y ≤ q.count y) ∧ r1.count x = q.count x := by
    intro p2
    induction p2 with
    | nil => intro p1 h1 h2; simp at h2; exact absurd h1 (by simpa using h2)
    | cons x p2 ih =>
      intro p1 h1 h2
      by_cases hx : p1.count x = q.count x
      · exact ⟨p1, x, p2, rfl, h1, hx⟩
      · obtain ⟨r1, y, r2, e, e1, e2⟩ := ih (p1 ++ [x]) (by
          intro y
          have := h1 y
          have := h1 x
          rw [List.count_append, List.count_cons]
          by_cases e : x = y
          · subst e; simp; omega
          · simp [e]; omega) (by simpa using h2)
        exact ⟨r1, y, r2, by simpa using e, e1, e2⟩
  exact key p [] (by simp) (by simpa using h)

/-- Where a movement from `s` with die `d` ends. -/
def land (d s : Int) : Int := if 0 ≤ s - d then s - d else -1

/-- Change of the count on `i` by a movement from `s`. -/
def delta (d : Int) (i : Nat) (s : Int) : Int :=
  (if (i : Int) = land d s then 1 else 0) - (if (i : Int) = s then 1 else 0)

def dsum (d : Int) (i : Nat) (l : List Int) : Int := (l.map (delta d i)).foldr (· + ·) 0

theorem dsum_append (d : Int) (i : Nat) (l1 l2 : List Int) :
    dsum d i (l1 ++ l2) = dsum d i l1 + dsum d i l2 := by
  induction l1 with
  | nil => simp [dsum]
  | cons x l1 ih => unfold dsum at *; simp only [List.cons_append, List.map_cons, List.foldr_cons, ih]; omega

theorem dsum_perm (d : Int) (i : Nat) {l1 l2 : List Int} (h : l1.Perm l2) : dsum d i l1 = dsum d i l2 := by
  induction h with
  | nil => rfl
  | cons x _ ih => unfold dsum at *; simp only [List.map_cons, List.foldr_cons, ih]
  | swap x y l => unfold dsum; simp only [List.map_cons, List.foldr_cons]; omega
  | trans _ _ h1 h2 => rw [h1, h2]

theorem legalStep_land {m t : List Int} {d s dest : Int} {hit : Bool} (h : LegalStep m t d s dest hit) :
    dest = land d s := by
  unfold land
  rcases h with ⟨_, _, h0, _, he, _⟩ | ⟨he, _, h1, _, h3, _, _, _, h⟩
  · rw [if_pos (by omega)]; exact he
  · rw [if_neg (by omega)]; exact he

/-- Counts after a play with one die: the mover's row. -/
theorem play_counts {b b' : Board} {pms : List PartialMove} {d : Int} (hp : PlayTo b pms b')
    (hd : ∀ pm ∈ pms, pm.die = d) :
    (∀ i < 25, cnt (mine b') i = cnt (mine b) i + dsum d i (pms.map (·.src))) ∧
    (∀ i < 24, cnt (theirs b') i < 2 ↔ cnt (theirs b) i < 2) := by
  induction hp with
  | nil b => exact ⟨by simp [dsum], by simp⟩
  | @cons b b1 b2 pm pms hs _ ih =>
    obtain ⟨h1, h2⟩ := ih (fun q hq => hd q (by simp [hq]))
    have hdie := hd pm (by simp)
    constructor
    · intro i hi
      rw [h1 i hi, hs.mover i hi]
      have hl := legalStep_land hs.legal
      rw [hdie] at hl
      unfold moverAfter dsum
      simp only [List.map_cons, List.foldr_cons]
      unfold delta
      rw [← hl]
      omega
    · intro i hi
      rw [h2 i hi, hs.other i (by omega)]
      unfold otherAfter
      rw [if_neg (by omega : ¬ (pm.isHitting = true ∧ i = 24))]
      by_cases hh : pm.isHitting = true ∧ (i : Int) = 23 - pm.dest
      · rw [if_pos hh]
        have : cnt (theirs b) i = 1 := by
          rcases hs.legal with h | h
          · have := (h.2.2.2.2.2.2.2.2).1 hh.1
            rwa [← hh.2] at this
          · rw [h.2.1] at hh; simp at hh
        omega
      · rw [if_neg hh]; omega

theorem Spec.PlayTo.valid {b b' : Board} {pms : List PartialMove} (hp : PlayTo b pms b') (hv : Valid b) :
    Valid b' := by
  induction hp with
  | nil b => exact hv
  | @cons b b1 b2 pm pms hs _ ih =>
    obtain ⟨c, _, hst, hcv, _⟩ := step_exists hv hs.legal
    obtain rfl := step_unique hs hst
    exact ih hcv

theorem Spec.PlayTo.split {b b' : Board} {l1 l2 : List PartialMove} (hp : PlayTo b (l1 ++ l2) b') :
    ∃ bm, PlayTo b l1 bm ∧ PlayTo bm l2 b' := by
  induction l1 generalizing b with
  | nil => exact ⟨b, .nil b, hp⟩
  | cons x l1 ih =>
    cases hp with
    | cons hs hr =>
      obtain ⟨bm, q1, q2⟩ := ih hr
      exact ⟨bm, .cons hs q1, q2⟩

theorem Spec.PlayTo.append {b bm b' : Board} {l1 l2 : List PartialMove} (h1 : PlayTo b l1 bm)
    (h2 : PlayTo bm l2 b') : PlayTo b (l1 ++ l2) b' := by
  induction h1 with
  | nil => exact h2
  | cons hs _ ih => exact .cons hs (ih h2)

/-- Chequers on the places from `k` on. -/
def tail (k : Nat) (f : Nat → Int) : Nat → Int
  | 0 => 0
  | n + 1 => f (k + n) + tail k f n

theorem tail_nonneg {k : Nat} {f : Nat → Int} (h : ∀ i, 0 ≤ f i) (n : Nat) : 0 ≤ tail k f n := by
  induction n with
  | zero => simp [tail]
  | succ n ih => have := h (k + n); unfold tail; omega

theorem tail_zero {k : Nat} {f : Nat → Int} (h : ∀ i, 0 ≤ f i) {n : Nat} (hz : tail k f n ≤ 0) :
    ∀ i, k ≤ i → i < k + n → f i = 0 := by
  induction n with
  | zero => intro i h1 h2; omega
  | succ n ih =>
    unfold tail at hz
    have h1 := h (k + n)
    have h2 := tail_nonneg h (k := k) n
    intro i hk hi
    by_cases e : i = k + n
    · subst e; omega
    · exact ih (by omega) i hk (by omega)

theorem tail_eq_zero {k : Nat} {f : Nat → Int} {n : Nat} (h : ∀ i, k ≤ i → i < k + n → f i = 0) :
    tail k f n = 0 := by
  induction n with
  | zero => rfl
  | succ n ih =>
    unfold tail
    rw [h (k + n) (by omega) (by omega), ih (fun i h1 h2 => h i h1 (by omega))]
    rfl

theorem tail_congr {k : Nat} {f g : Nat → Int} {n : Nat} (h : ∀ i, k ≤ i → i < k + n → f i = g i) :
    tail k f n = tail k g n := by
  induction n with
  | zero => rfl
  | succ n ih =>
    unfold tail
    rw [h (k + n) (by omega) (by omega), ih (fun i h1 h2 => h i h1 (by omega))]

theorem tail_add (k : Nat) (f g : Nat → Int) (n : Nat) :
    tail k (fun i => f i + g i) n = tail k f n + tail k g n := by
  induction n with
  | zero => simp [tail]
  | succ n ih => unfold tail; rw [ih]; omega

/-- A movement never brings a chequer from below `k` to `k` or above. -/
theorem tail_delta {d : Int} (hd : 1 ≤ d) (k : Nat) {s : Int} (hs : 0 ≤ s) (n : Nat) (h24 : s < k + n) :
    tail k (fun i => delta d i s) n ≤ 0 := by
  have key : ∀ (x : Int) n, tail k (fun i => if (i : Int) = x then 1 else 0) n =
      if (k : Int) ≤ x ∧ x < k + n then 1 else 0 := by
    intro x n
    induction n with
    | zero => simp only [tail]; rw [if_neg (by omega)]
    | succ n ih =>
      unfold tail
      rw [ih]
      by_cases e : ((k + n : Nat) : Int) = x
      · rw [if_pos e, if_neg (by omega), if_pos (by omega)]; rfl
      · rw [if_neg e]
        by_cases c : (k : Int) ≤ x ∧ x < k + n
        · rw [if_pos c, if_pos (by omega)]; rfl
        · rw [if_neg c, if_neg (by omega)]; rfl
  have e : tail k (fun i => delta d i s) n + tail k (fun i => if (i : Int) = s then 1 else 0) n =
      tail k (fun i => if (i : Int) = land d s then 1 else 0) n := by
    rw [← tail_add]
    apply tail_congr
    intro i _ _
    unfold delta; omega
  rw [key, key] at e
  have hl : land d s < s := by unfold land; split <;> omega
  by_cases c : (k : Int) ≤ land d s ∧ land d s < k + n
  · rw [if_pos c, if_pos (by omega)] at e; omega
  · rw [if_neg c] at e
    split at e <;> omega

theorem tail_dsum {d : Int} (hd : 1 ≤ d) (k n : Nat) (l : List Int)
    (hl : ∀ s ∈ l, 0 ≤ s ∧ s < k + n) : tail k (fun i => dsum d i l) n ≤ 0 := by
  induction l with
  | nil =>
    rw [tail_eq_zero]
    · exact Int.le_refl 0
    · intro i _ _; rfl
  | cons s l ih =>
    have h1 := ih (fun x hx => hl x (by simp [hx]))
    have h2 := tail_delta hd k (hl s (by simp)).1 n (hl s (by simp)).2
    have e : tail k (fun i => dsum d i (s :: l)) n =
        tail k (fun i => delta d i s) n + tail k (fun i => dsum d i l) n := by
      rw [← tail_add]; rfl
    omega

theorem dsum_bar {d : Int} (hd : 1 ≤ d) (l : List Int) (hl : ∀ s ∈ l, 0 ≤ s ∧ s ≤ 24) :
    dsum d 24 l ≤ 0 := by
  have := tail_dsum hd 24 1 l (by intro s hs; have := hl s hs; omega)
  simpa [tail] using this

theorem dsum_other (d : Int) (i : Nat) (l : List Int) (h : ((i : Nat) : Int) ∉ l) : 0 ≤ dsum d i l := by
  induction l with
  | nil => exact Int.le_refl 0
  | cons s l ih =>
    simp only [List.mem_cons, not_or] at h
    have := ih h.2
    have hd : 0 ≤ delta d i s := by
      unfold delta
      rw [if_neg h.1]
      split <;> omega
    unfold dsum at *
    simp only [List.map_cons, List.foldr_cons]
    omega

/-- **Exchange**: of two plays with the same die, the shorter one can be prolonged. -/
theorem exchange {b bp bq : Board} {p q : List PartialMove} {d : Int} (hv : Valid b)
    (hp : PlayTo b p bp) (hq : PlayTo b q bq) (dp : ∀ pm ∈ p, pm.die = d) (dq : ∀ pm ∈ q, pm.die = d)
    (hlen : q.length < p.length) :
    ∃ src dest hit, LegalStep (mine bq) (theirs bq) d src dest hit := by
  have hsrc : ∀ {b b' : Board} {l : List PartialMove}, PlayTo b l b' → ∀ s ∈ l.map (·.src), 0 ≤ s ∧ s ≤ 24 := by
    intro b b' l h
    induction h with
    | nil => simp
    | cons hs _ ih =>
      intro s hm
      simp only [List.map_cons, List.mem_cons] at hm
      rcases hm with rfl | hm
      · have := legalStep_movable hs.legal; omega
      · exact ih s hm
  have hnot : ¬ ∀ x, (p.map (·.src)).count x ≤ (q.map (·.src)).count x := by
    intro h
    obtain ⟨l3, h3⟩ := perm_of_count_le h
    have := h3.length_eq
    simp at this; omega
  obtain ⟨s1, x, s2, e, hle, heq⟩ := first_excess hnot
  -- split the longer play at that movement
  obtain ⟨p1, rest, rfl, hp1, hrest⟩ := List.map_eq_append_iff.1 e
  obtain ⟨pm, p2, rfl, hpm, hp2⟩ := List.map_eq_cons_iff.1 hrest
  obtain ⟨bm, hb1, hb2⟩ := hp.split
  cases hb2 with
  | @cons _ b1 _ _ _ hs hr =>
  have hdie : pm.die = d := dp pm (by simp)
  obtain ⟨l3, h3⟩ := perm_of_count_le hle
  have hvm := hb1.valid hv
  have hvq := hq.valid hv
  obtain ⟨cm, tm⟩ := play_counts hb1 (d := d) (fun r hr => dp r (by simp [hr]))
  obtain ⟨cq, tq⟩ := play_counts hq (d := d) dq
  have hl3 : ∀ s ∈ l3, 0 ≤ s ∧ s ≤ 24 := by
    intro s hs
    exact hsrc hq s (h3.mem_iff.2 (by simp [hs]))
  have hx3 : x ∉ l3 := by
    intro hx
    have := h3.count_eq x
    rw [List.count_append, heq] at this
    have := List.count_pos_iff.2 hx
    omega
  have hd1 : 1 ≤ d := by
    rw [← hdie]
    rcases hs.legal with h | h
    · exact h.1
    · exact h.2.2.1
  have diff : ∀ i < 25, cnt (mine bq) i = cnt (mine bm) i + dsum d i l3 := by
    intro i hi
    rw [cq i hi, cm i hi, hp1, dsum_perm d i h3, dsum_append]; omega
  have hxr := legalStep_movable hs.legal
  rw [hpm] at hxr
  have hcx : cnt (mine bm) x.toNat ≤ cnt (mine bq) x.toNat := by
    rw [diff _ (by omega)]
    have := dsum_other d x.toNat l3 (by rw [show ((x.toNat : Nat) : Int) = x by omega]; exact hx3)
    omega
  have hbarle : cnt (mine bq) 24 ≤ cnt (mine bm) 24 := by
    rw [diff 24 (by omega)]
    have := dsum_bar hd1 l3 hl3
    omega
  have hbar0 := hvm.mine_row.2 24
  have hbarq := hvq.mine_row.2 24
  -- nothing above `k` before, nothing above `k` after
  have habove : ∀ k : Nat, k ≤ 25 → (∀ i, k ≤ i → cnt (mine bm) i = 0) → ∀ i, k ≤ i → cnt (mine bq) i = 0 := by
    intro k hk hz i hi
    by_cases h25 : i < 25
    · have t1 : tail k (fun i => cnt (mine bq) i) (25 - k) =
          tail k (fun i => cnt (mine bm) i) (25 - k) + tail k (fun i => dsum d i l3) (25 - k) := by
        rw [← tail_add]
        apply tail_congr
        intro j h1 h2
        exact diff j (by omega)
      have t2 := tail_dsum hd1 k (25 - k) l3 (by intro s hs; have := hl3 s hs; omega)
      rw [tail_eq_zero (f := fun i => cnt (mine bm) i) (fun i h1 _ => hz i h1)] at t1
      exact tail_zero (n := 25 - k) (f := fun i => cnt (mine bq) i) hvq.mine_row.2 (by omega) i hi (by omega)
    · exact cnt_out hvq.mine_row.1 (by omega)
  have hleg := hs.legal
  rw [hpm, hdie] at hleg
  rcases hleg with ⟨g1, g2, g3, g4, g5, g6, g7, g8, g9⟩ | ⟨g1, g2, g3, g4, g5, g6, g7, g8, g9⟩
  · refine ⟨x, pm.dest, decide (cnt (theirs bq) (23 - pm.dest).toNat = 1), Or.inl
      ⟨g1, g2, g3, g4, g5, by omega, ?_, ?_, by simp⟩⟩
    · intro h; exact g7 (by omega)
    · rw [tq _ (by omega)]
      rwa [tm _ (by omega)] at g8
  · refine ⟨x, -1, false, Or.inr ⟨rfl, rfl, g3, g4, g5, g6, by omega, ?_, ?_⟩⟩
    · exact habove 6 (by omega) g8
    · rcases g9 with g9 | ⟨g9, g10⟩
      · exact Or.inl g9
      · refine Or.inr ⟨g9, ?_⟩
        intro i hi
        exact habove (x.toNat + 1) (by omega) (fun j hj => g10 j (by omega)) i (by omega)

end Bglib
