import Verif.Lemmas.Nori
/-
C24: the gnubg one-sided index; C25: nori's index; C27: reading records.
-/
namespace Bglib
open Spec

/-! ### C24 -/

/-- **C24**: every position of at most `c` chequers on `p` points has an index below `C(p+c, c)`. -/
theorem C24_range (t : List Nat) (p c : Nat) (hp : 1 ≤ p) (h : OnPoints t p c) :
    ∃ k, onesideIndex t p c = .ok k ∧ k < (p + c).choose c := by
  obtain ⟨rfl, hs⟩ := h
  refine ⟨_, onesideIndex_eq t _ c hp (Nat.le_refl _) (by simpa using hs), ?_⟩
  rw [List.take_length]
  have := rank_lt t c hs
  rwa [Nat.choose_symm_of_eq_add rfl] at this

/-- **C24**: different positions have different indices. -/
theorem C24_injective (t u : List Nat) (p c : Nat) (hp : 1 ≤ p) (ht : OnPoints t p c)
    (hu : OnPoints u p c) (h : onesideIndex t p c = onesideIndex u p c) : t = u := by
  obtain ⟨rfl, hs⟩ := ht
  obtain ⟨hl, hs'⟩ := hu
  rw [onesideIndex_eq t _ c hp (Nat.le_refl _) (by simpa using hs),
    onesideIndex_eq u _ c hp (by omega) (by rw [← hl]; simpa using hs')] at h
  rw [List.take_length, ← hl, List.take_length] at h
  exact rank_inj t u c hl.symm hs hs' (by simpa using h)

/-- **C24**: every number below `C(p+c, c)` is the index of a position. -/
theorem C24_surjective (p c k : Nat) (hp : 1 ≤ p) (hk : k < (p + c).choose c) :
    ∃ t, OnPoints t p c ∧ onesideIndex t p c = .ok k := by
  obtain ⟨t, rfl, hs, hr⟩ := rank_surj p c k (by rwa [Nat.choose_symm_of_eq_add rfl])
  exact ⟨t, ⟨rfl, hs⟩, by
    rw [onesideIndex_eq t _ c hp (Nat.le_refl _) (by simpa using hs), List.take_length, hr]⟩

/-- **C24**: only the first `p` entries of a longer tuple matter. -/
theorem C24_tail (t rest : List Nat) (p c : Nat) (hp : 1 ≤ p) (h : OnPoints t p c) :
    onesideIndex (t ++ rest) p c = onesideIndex t p c := by
  obtain ⟨rfl, hs⟩ := h
  rw [onesideIndex_eq _ _ c hp (by simp) (by simpa using hs),
    onesideIndex_eq _ _ c hp (Nat.le_refl _) (by simpa using hs)]
  simp

/-- The positions of the repository's own tests (gnubgdb_test.py). -/
example : OnPoints [0,0,1,2,5,1] 6 9 ∧ onesideIndex [0,0,1,2,5,1,0,0,0] 6 9 = .ok 4927 ∧
    onesideIndex [2,3,0,1,0,3] 6 8 = .ok 505 ∧ onesideIndex [1] 1 1 = .ok 1 :=
  ⟨⟨rfl, by decide⟩, by decide +kernel, by decide +kernel, by decide +kernel⟩

/-! ### C25 -/

/-- **C25**: every position of at most 15 chequers on 6 points has a key; the keys of positions with
`n` chequers are those between the numbers of positions with fewer than `n` and with at most `n`
chequers. -/
theorem C25_range (H : HashPair) (hH : H.Ok) (t : List Nat) (h : OnPoints t 6 15) :
    ∃ k, noriT2k H t = .ok k ∧ k < 54264 ∧ (t.sum + 5).choose 6 ≤ k ∧ k < (t.sum + 6).choose 6 := by
  obtain ⟨k, h1, h2, h3⟩ := noriT2k_bounds H hH t h
  have h4 := sigmaD_mono (show t.sum + 1 ≤ 16 by have := h.2; omega)
  have h5 : sigmaD 16 = 54264 := by decide
  rw [sigmaD_eq] at h2
  refine ⟨k, h1, by omega, h2, ?_⟩
  rw [sigmaD_eq] at h3
  exact h3

/-- **C25**: different positions have different keys. -/
theorem C25_injective (H : HashPair) (hH : H.Ok) (t u : List Nat) (ht : OnPoints t 6 15)
    (hu : OnPoints u 6 15) (h : noriT2k H t = noriT2k H u) : t = u := by
  obtain ⟨e1, c1, l1⟩ := noriT2k_eq H hH t ht
  obtain ⟨e2, c2, l2⟩ := noriT2k_eq H hH u hu
  obtain ⟨k, b1, b2, b3⟩ := noriT2k_bounds H hH t ht
  obtain ⟨k', b1', b2', b3'⟩ := noriT2k_bounds H hH u hu
  have hk : k = k' := by rw [b1, b1'] at h; simpa using h
  have hs : t.sum = u.sum := by
    rcases Nat.lt_trichotomy t.sum u.sum with hlt | heq | hlt
    · have := sigmaD_mono (show t.sum + 1 ≤ u.sum by omega); omega
    · exact heq
    · have := sigmaD_mono (show u.sum + 1 ≤ t.sum by omega); omega
  rw [e1, e2] at h
  simp only [Except.ok.injEq] at h
  rw [hs] at h l1 c1
  have := hH.inj _ _ _ (by omega) c1 c2 (by omega)
  have hr : (unary t).reverse = (unary u).reverse := by
    rw [unary_reverse t (by rintro rfl; simp [OnPoints] at ht), unary_reverse u (by rintro rfl; simp [OnPoints] at hu),
      this]
  exact unary_inj t u (by rw [ht.1, hu.1]) (List.reverse_inj.1 hr)

/-- **C25**: every number below 54264 is a key. -/
theorem C25_surjective (H : HashPair) (hH : H.Ok) (k : Nat) (hk : k < 54264) :
    ∃ t, OnPoints t 6 15 ∧ noriT2k H t = .ok k := by
  obtain ⟨c, hc, h1, h2⟩ := sigma_find k 16 (by rw [show sigmaD 16 = 54264 by decide]; exact hk)
  rw [sigmaD_step] at h2
  obtain ⟨r1, r2, r3⟩ := hH.inverse (k - sigmaD c) (5 + c) c (by omega)
  obtain ⟨t, ht, hl⟩ := unary_surj (H.rhash (k - sigmaD c) (5 + c) c).reverse
  have hf : (H.rhash (k - sigmaD c) (5 + c) c).count false = 5 := by
    have : ∀ l : List Bool, l.count false + l.count true = l.length := by
      intro l; induction l with
      | nil => rfl
      | cons b l ih => cases b <;> simp <;> omega
    have := this (H.rhash (k - sigmaD c) (5 + c) c)
    omega
  rw [List.count_reverse, hf] at hl
  have hsum : t.sum = c := by
    have := (unary_count t).1
    rw [ht] at this
    simp [r2] at this
    omega
  have hon : OnPoints t 6 15 := ⟨hl, by omega⟩
  refine ⟨t, hon, ?_⟩
  obtain ⟨e1, _, _⟩ := noriT2k_eq H hH t hon
  have hr := unary_reverse t (by rintro rfl; simp at hl)
  rw [ht] at hr
  simp only [List.reverse_append, List.reverse_cons, List.reverse_nil, List.nil_append, List.reverse_reverse,
    List.singleton_append, List.cons.injEq, true_and] at hr
  rw [e1, ← hr, hsum, r3]
  congr 1; omega

/-- Full statement of the inverse part of C25. -/
def C25_inverse_statement : Prop := ∀ (H : HashPair), H.Ok → ∀ t k, OnPoints t 6 15 →
  noriT2k H t = .ok k → noriK2t H k = .ok t

/-- **C25**, inverse: holds for up to 14 chequers.  Missing: exactly 15 chequers. -/
theorem C25_inverse_partial (H : HashPair) (hH : H.Ok) (t : List Nat) (k : Nat) (h : OnPoints t 6 14)
    (hk : noriT2k H t = .ok k) : noriK2t H k = .ok t := by
  have hon : OnPoints t 6 15 := ⟨h.1, by have := h.2; omega⟩
  obtain ⟨e1, c1, l1⟩ := noriT2k_eq H hH t hon
  obtain ⟨k', b1, b2, b3⟩ := noriT2k_bounds H hH t hon
  have : k' = k := by rw [hk] at b1; simpa using b1.symm
  subst this
  unfold noriK2t
  rw [List.range_eq_range', noriK2tLoop_eq H k' t.sum b2 b3 15 0 (by omega) (by have := h.2; omega)]
  have hkh : k' - sigmaD t.sum = H.hash (sepOnes t.reverse) t.sum := by
    rw [hk] at e1; simp only [Except.ok.injEq] at e1; omega
  rw [sigmaD_step] at b3
  obtain ⟨r1, r2, r3⟩ := hH.inverse (k' - sigmaD t.sum) (5 + t.sum) t.sum (by omega)
  have : H.rhash (k' - sigmaD t.sum) (5 + t.sum) t.sum = sepOnes t.reverse :=
    hH.inj _ _ _ (by omega) r2 c1 (by omega)
  rw [this]
  have hf := fillPoints_sep t.reverse [] (by
    intro he
    have := congrArg List.length he
    simp [h.1] at this)
  simp only [List.nil_append, List.length_nil, List.length_reverse, h.1] at hf
  rw [show ([0, 0, 0, 0, 0, 0] : List Nat) = List.replicate 6 0 from rfl, hf]
  simp [bind, Except.bind, pure, Except.pure]

/-- **C25**: with 15 chequers the inverse always fails with `AssertionError`. -/
theorem C25_fifteen (H : HashPair) (hH : H.Ok) (t : List Nat) (k : Nat) (h : t.length = 6) (hs : t.sum = 15)
    (hk : noriT2k H t = .ok k) : noriK2t H k = .error .assertion := by
  obtain ⟨k', b1, b2, _⟩ := noriT2k_bounds H hH t ⟨h, by omega⟩
  have : k' = k := by rw [hk] at b1; simpa using b1.symm
  subst this
  unfold noriK2t
  rw [List.range_eq_range']
  exact noriK2tLoop_high H k' 15 0 (by rw [hs] at b2; simpa using b2)

/-- The contract can be met, and the keys of nori_test.py come out. -/
example : rankPair.Ok ∧ OnPoints [2,0,0,0,0,0] 6 15 ∧ noriT2k rankPair [2,0,0,0,0,0] = .ok 7 ∧
    noriT2k rankPair [1,1,0,0,0,0] = .ok 8 ∧ noriT2k rankPair [0,0,0,0,0,15] = .ok 54263 ∧
    noriK2t rankPair 8 = .ok [1,1,0,0,0,0] :=
  ⟨rankPair_ok, ⟨rfl, by decide⟩, by decide +kernel, by decide +kernel, by decide +kernel, by decide +kernel⟩

/-- **C25 is false** for the inverse: 15 chequers on the ace point. -/
theorem C25_inverse_false : ¬ C25_inverse_statement := by
  intro h
  have hk : noriT2k rankPair [15,0,0,0,0,0] = .ok 38760 := by decide +kernel
  have := h rankPair rankPair_ok [15,0,0,0,0,0] 38760 ⟨rfl, by decide⟩ hk
  rw [C25_fifteen rankPair rankPair_ok _ _ rfl (by decide) hk] at this
  simp at this

/-! ### C27 -/

/-- **C27**: whatever number of bytes the file hands over at each `read`, the record with a given index
is exactly its `datalen` bytes, and an index behind the last whole record is an `IndexError`. -/
theorem C27_read (file : List Nat) (datalen : Nat) (plan : List Nat) (index : Nat) :
    rawread file datalen plan index =
      if index * datalen + datalen ≤ file.length ∨ datalen = 0
      then .ok ((file.drop (index * datalen)).take datalen) else .error .indexError := by
  unfold rawread
  have e : ((index : Int) * (datalen : Int)).toNat = index * datalen := by
    rw [← Int.natCast_mul, Int.toNat_natCast]
  have h0 : ¬ (index : Int) * (datalen : Int) < 0 := by rw [← Int.natCast_mul]; omega
  rw [if_neg h0, e, rawreadLoop_spec _ _ _ _ _ (by simp)]
  simp only [List.length_nil, List.nil_append, List.length_drop, Nat.zero_add]
  by_cases h : index * datalen + datalen ≤ file.length ∨ datalen = 0
  · rw [if_pos (by omega), if_pos h]
  · rw [if_neg (by omega), if_neg h]

/-- **C27**: a negative index never reads the wrong record: it is an `IOError`. -/
theorem C27_negative (file : List Nat) (datalen : Nat) (plan : List Nat) (index : Int) (h : index < 0)
    (hd : 0 < datalen) : rawread file datalen plan index = .error .ioError := by
  unfold rawread
  rw [if_pos (Int.mul_neg_of_neg_of_pos h (by omega))]

example : rawread [10, 11, 12, 13, 14, 15, 16] 3 [1, 1, 2] 1 = .ok [13, 14, 15] ∧
    rawread [10, 11, 12, 13, 14, 15, 16] 3 [2] 2 = .error .indexError := by decide

/-! ### C51 -/

/-- Full statement of C51: pairs of positions are numbered, different pairs differently. -/
def C51_statement : Prop :=
  (∀ us them, us.length = 25 → them.length = 25 → us.sum ≤ 15 → them.sum ≤ 15 →
    ∃ k, hughIndexing us them = .ok (some k)) ∧
  ∀ us them us' them' k, hughIndexing us them = .ok (some k) → hughIndexing us' them' = .ok (some k) →
    us = us' ∧ them = them'

/-- **C51**, what holds: for a side with a chequer left, the number of points is that of its rearmost
chequer.  Missing: the index itself, and a side with no chequers. -/
theorem C51_backward_partial (t : List Nat) (x : Nat) (n : Nat)
    (hl : (t ++ x :: List.replicate n 0).length = 25) (hx : 0 < x) :
    backward (t ++ x :: List.replicate n 0) = .ok (t.length + 1) := by
  simp at hl
  have := backwardLoop_down t x n hx n (25 + 26) (Nat.le_refl _) (by omega)
  rw [show t.length + n = 24 by omega] at this
  unfold backward
  rw [show (t ++ x :: List.replicate n 0).length = 25 by simp; omega]
  exact this

example : backward ([0,2,0] ++ 1 :: List.replicate 21 0) = .ok 4 := by decide

/-- **C51**, what holds: the numbers of points and chequers are those of the side with more of them, and with
these the index of each side is found; both are then thrown away.  Missing: as above. -/
theorem C51_param_partial (t u : List Nat) (x y n m : Nat) (hx : 0 < x) (hy : 0 < y)
    (hl : (t ++ x :: List.replicate n 0).length = 25) (hl' : (u ++ y :: List.replicate m 0).length = 25) :
    let us := t ++ x :: List.replicate n 0
    let them := u ++ y :: List.replicate m 0
    let p := max (t.length + 1) (u.length + 1)
    let c := max us.sum them.sum
    bearoffParam us them = .ok ((p : Nat), c) ∧
      (∃ i j, onesideIndex us p c = .ok i ∧ onesideIndex them p c = .ok j) ∧ hughIndexing us them = .ok none := by
  intro us them p c
  have hp : bearoffParam us them = .ok ((p : Nat), c) := by
    unfold bearoffParam
    simp only [us, them, bind, Except.bind, pure, Except.pure, C51_backward_partial t x n hl hx,
      C51_backward_partial u y m hl' hy, countChequers, foldl_add_eq, Nat.zero_add, p, c, Except.ok.injEq, Prod.mk.injEq,
      and_true]
    omega
  have sum_take : ∀ l : List Nat, (l.take p).sum ≤ l.sum := fun l => by
    conv => rhs; rw [← List.take_append_drop p l, List.sum_append]
    omega
  have i1 := onesideIndex_eq us p c (by omega) (by simp only [us, List.length_append, List.length_cons, List.length_replicate] at hl hl' ⊢; omega)
    ((sum_take us).trans (by omega))
  have i2 := onesideIndex_eq them p c (by omega) (by simp only [them, List.length_append, List.length_cons, List.length_replicate] at hl hl' ⊢; omega)
    ((sum_take them).trans (by omega))
  refine ⟨hp, ⟨_, _, i1, i2⟩, ?_⟩
  unfold hughIndexing
  simp only [bind, Except.bind, pure, Except.pure, hp, Int.toNat_natCast, i1, i2]

example : bearoffParam ([0, 2] ++ 1 :: List.replicate 22 0) ([] ++ 5 :: List.replicate 24 0) = .ok (3, 5) := by decide

/-- **C51**: with a side borne off completely the question is an `IndexError`. -/
theorem C51_empty : backward (List.replicate 25 0) = .error .indexError := by decide

/-- **C51 is false**: no pair of positions has an index. -/
theorem C51_none (us them : List Nat) (k : Nat) : hughIndexing us them ≠ .ok (some k) := by
  unfold hughIndexing
  cases bearoffParam us them with
  | error e => simp [bind, Except.bind]
  | ok q =>
    simp only [bind, Except.bind, pure, Except.pure]
    cases onesideIndex us q.1.toNat q.2 with
    | error e => simp
    | ok a => cases onesideIndex them q.1.toNat q.2 <;> simp

theorem C51_false : ¬ C51_statement := by
  intro h
  obtain ⟨k, hk⟩ := h.1 (List.replicate 25 0) (List.replicate 25 0) rfl rfl (by decide) (by decide)
  exact C51_none _ _ _ hk

/-! ### C52 -/

/-- Full statement of C52: trice's numbering does not give two positions the same key. -/
def C52_statement : Prop := ∀ (H : HashPair), H.Ok → ∀ us them us' them' : List Nat,
  OnPoints us 6 15 → OnPoints them 6 15 → OnPoints us' 6 15 → OnPoints them' 6 15 →
  triceT2k H us them = triceT2k H us' them' → us = us' ∧ them = them'

/-- **C52**, what holds: positions with the same number of chequers altogether have different keys.
Missing: positions with different numbers of chequers. -/
theorem C52_same_count_partial (H : HashPair) (hH : H.Ok) (us them us' them' : List Nat)
    (h1 : us.length = 6) (h2 : them.length = 6) (h3 : us'.length = 6) (h4 : them'.length = 6)
    (hc : us.sum + them.sum = us'.sum + them'.sum)
    (h : triceT2k H us them = triceT2k H us' them') : us = us' ∧ them = them' := by
  refine interleave_inj us them us' them' (by omega) (by omega) (by omega) ?_
  obtain ⟨s1, l1⟩ := interleave_sum us them (by omega)
  obtain ⟨s2, l2⟩ := interleave_sum us' them' (by omega)
  unfold triceT2k at h
  simp only [countChequers_eq] at h
  generalize ((us.zip them).flatMap fun p => [p.1, p.2]) = xs at *
  generalize ((us'.zip them').flatMap fun p => [p.1, p.2]) = ys at *
  have hsum : xs.sum = ys.sum := by omega
  rw [hsum] at h
  have key : H.hash (false :: unary xs) ys.sum = H.hash (false :: unary ys) ys.sum → xs = ys := by
    intro hh
    have cx := unary_count xs
    have cy := unary_count ys
    have := hH.inj _ _ ys.sum (by simp only [List.length_cons]; omega)
      (by rw [List.count_cons_of_ne (by simp)]; omega) (by rw [List.count_cons_of_ne (by simp)]; omega) hh
    exact unary_inj xs ys (by omega) (by simpa using this)
  by_cases z : ys.sum = 0
  · have zero : ∀ l : List Nat, l.sum = 0 → l = List.replicate l.length 0 := by
      intro l hl
      rw [List.eq_replicate_iff]
      exact ⟨rfl, fun b hb => by have := List.sum_eq_zero_iff_forall_eq_nat.1 hl b hb; exact this⟩
    rw [zero xs (by omega), zero ys z, l1, l2, h1, h3]
  · rw [if_neg z, if_neg z] at h
    by_cases o : ys.sum = 1
    · rw [if_pos o, if_pos o] at h; exact key (by omega)
    · rw [if_neg o, if_neg o] at h; exact key (by omega)

/-- **C52 is false**: one chequer and two chequers share keys, already with the usual
numbering as hash. -/
theorem C52_false : ¬ C52_statement := by
  intro h
  have e : triceT2k rankPair [0,0,0,0,0,0] [1,0,0,0,0,0] =
      triceT2k rankPair [0,0,0,0,1,0] [0,0,0,0,0,1] := by
    decide +kernel
  have := h rankPair rankPair_ok _ _ _ _ ⟨rfl, by decide⟩ ⟨rfl, by decide⟩ ⟨rfl, by decide⟩ ⟨rfl, by decide⟩ e
  simp at this

/-- Where the keys of positions with `c` chequers begin. -/
private def triceBase (c : Nat) : Nat :=
  if c = 0 then 0 else if c = 1 then 1 else triceD (c - 1) 7 ^ 2

private theorem triceT2k_base (H : HashPair) (hH : H.Ok) (us them : List Nat) (h1 : us.length = 6)
    (h2 : them.length = 6) :
    triceBase (us.sum + them.sum) ≤ triceT2k H us them ∧
    triceT2k H us them < triceBase (us.sum + them.sum) + (12 + (us.sum + them.sum)).choose 12 := by
  obtain ⟨s1, l1⟩ := interleave_sum us them (by omega)
  unfold triceT2k triceBase
  simp only [countChequers_eq]
  generalize ((us.zip them).flatMap fun p => [p.1, p.2]) = xs at *
  obtain ⟨c1, c2⟩ := unary_count xs
  have hb := hH.range (unary xs) xs.sum c1
  rw [c2, l1, h1, show xs.sum + 2 * 6 = 12 + xs.sum by omega, Nat.choose_symm_add (a := 12)] at *
  rw [← s1, hH.leading]
  by_cases z : xs.sum = 0
  · simp [z]
  · by_cases o : xs.sum = 1
    · rw [if_neg z, if_pos o, if_neg z, if_pos o]; omega
    · rw [if_neg z, if_neg o, if_neg z, if_neg o]; omega

private theorem triceBase_apart : ∀ c < 31, ∀ c' < 31, ¬ c < c' ∨ (c = 1 ∧ c' = 2) ∨ (c = 2 ∧ c' = 3) ∨
    triceBase c + (12 + c).choose 12 ≤ triceBase c' := by
  have e : ∀ n k, Nat.choose n k = n.descFactorial k / k.factorial := Nat.choose_eq_descFactorial_div_factorial
  unfold triceBase triceD
  simp only [e]
  decide +kernel

/-- **C52**, where it fails at most: two positions with the same key are the same, or have one and two or
two and three chequers altogether. -/
theorem C52_where_partial (H : HashPair) (hH : H.Ok) (us them us' them' : List Nat)
    (h1 : OnPoints us 6 15) (h2 : OnPoints them 6 15) (h3 : OnPoints us' 6 15) (h4 : OnPoints them' 6 15)
    (h : triceT2k H us them = triceT2k H us' them') :
    (us = us' ∧ them = them') ∨
    (us.sum + them.sum, us'.sum + them'.sum) ∈ [(1, 2), (2, 1), (2, 3), (3, 2)] := by
  obtain ⟨l1, s1⟩ := h1
  obtain ⟨l2, s2⟩ := h2
  obtain ⟨l3, s3⟩ := h3
  obtain ⟨l4, s4⟩ := h4
  have b := triceT2k_base H hH us them l1 l2
  have b' := triceT2k_base H hH us' them' l3 l4
  rw [h] at b
  by_cases hc : us.sum + them.sum = us'.sum + them'.sum
  · exact Or.inl (C52_same_count_partial H hH us them us' them' l1 l2 l3 l4 hc h)
  · right
    have hle : us.sum + them.sum < 31 := by omega
    generalize us.sum + them.sum = c at *
    simp only [List.mem_cons, Prod.mk.injEq, List.not_mem_nil, or_false]
    rcases Nat.lt_or_gt_of_ne hc with hlt | hlt
    · have := triceBase_apart c (by omega) (us'.sum + them'.sum) (by omega)
      omega
    · have := triceBase_apart (us'.sum + them'.sum) (by omega) c (by omega)
      omega

private def comps : Nat → Nat → List (List Nat)
  | 0, 0 => [[]]
  | 0, _ + 1 => []
  | k + 1, n => (List.range (n + 1)).flatMap fun a => (comps k (n - a)).map (a :: ·)

private theorem mem_comps : ∀ (l : List Nat) (k n : Nat), l.length = k → l.sum = n → l ∈ comps k n
  | [], k, n, h1, h2 => by subst h1; subst h2; simp [comps]
  | a :: l, 0, _, h1, _ => by simp at h1
  | a :: l, k + 1, n, h1, h2 => by
    simp only [List.sum_cons] at h2
    simp only [comps, List.mem_flatMap, List.mem_range, List.mem_map]
    exact ⟨a, by omega, l, mem_comps l k (n - a) (by simpa using h1) (by omega), rfl⟩

private def positionsOf (n : Nat) : List (List Nat × List Nat) :=
  (List.range (n + 1)).flatMap fun a => (comps 6 a).flatMap fun u => (comps 6 (n - a)).map fun t => (u, t)

private theorem mem_positionsOf (us them : List Nat) (h1 : us.length = 6) (h2 : them.length = 6) :
    (us, them) ∈ positionsOf (us.sum + them.sum) := by
  simp only [positionsOf, List.mem_flatMap, List.mem_range, List.mem_map]
  exact ⟨us.sum, by omega, us, mem_comps us 6 _ h1 rfl, them, mem_comps them 6 _ h2 (by omega), rfl⟩

private def usualKey (p : List Nat × List Nat) : Nat := triceT2k rankPair p.1 p.2

private def sharing : List ((List Nat × List Nat) × (List Nat × List Nat)) :=
  sharedKeys.map fun p => (chequersAt p.1, chequersAt p.2)

private theorem share12 : ∀ p ∈ positionsOf 1, ∀ q ∈ positionsOf 2, usualKey p = usualKey q → (p, q) ∈ sharing := by
  decide +kernel

private def lowThrees : List (List Nat × List Nat) :=
  [[8, 9, 11], [8, 10, 10], [8, 10, 11], [8, 11, 11], [9, 9, 9], [9, 9, 10], [9, 9, 11], [9, 10, 10],
    [9, 10, 11], [9, 11, 11], [10, 10, 10], [10, 10, 11], [10, 11, 11], [11, 11, 11]].map chequersAt

private theorem low2 : ∀ p ∈ positionsOf 2, usualKey p < 92 := by decide +kernel

private theorem low3 : ∀ p ∈ positionsOf 3, usualKey p < 92 → p ∈ lowThrees := by decide +kernel

private theorem share23' : ∀ p ∈ positionsOf 2, ∀ q ∈ lowThrees, usualKey p = usualKey q → (p, q) ∈ sharing := by
  decide +kernel

private theorem share23 (p : List Nat × List Nat) (hp : p ∈ positionsOf 2) (q : List Nat × List Nat)
    (hq : q ∈ positionsOf 3) (h : usualKey p = usualKey q) : (p, q) ∈ sharing :=
  share23' p hp q (low3 q hq (h ▸ low2 p hp)) h

/-- **C52**, exactly where it fails with the usual numbering: two different positions have the same key if
and only if they are one of the twenty pairs. -/
theorem C52_exact (us them us' them' : List Nat)
    (h1 : OnPoints us 6 15) (h2 : OnPoints them 6 15) (h3 : OnPoints us' 6 15) (h4 : OnPoints them' 6 15) :
    triceT2k rankPair us them = triceT2k rankPair us' them' ↔
      (us = us' ∧ them = them') ∨ ∃ p ∈ sharedKeys,
        (chequersAt p.1 = (us, them) ∧ chequersAt p.2 = (us', them')) ∨
        (chequersAt p.1 = (us', them') ∧ chequersAt p.2 = (us, them)) := by
  have out : ∀ a b : List Nat × List Nat, (a, b) ∈ sharing →
      ∃ p ∈ sharedKeys, chequersAt p.1 = a ∧ chequersAt p.2 = b := by
    intro a b h
    obtain ⟨p, hp, he⟩ := List.mem_map.1 h
    exact ⟨p, hp, congrArg Prod.fst he, congrArg Prod.snd he⟩
  constructor
  · intro h
    rcases C52_where_partial rankPair rankPair_ok us them us' them' h1 h2 h3 h4 h with h' | h'
    · exact Or.inl h'
    · right
      have m := mem_positionsOf us them h1.1 h2.1
      have m' := mem_positionsOf us' them' h3.1 h4.1
      simp only [List.mem_cons, Prod.mk.injEq, List.not_mem_nil, or_false] at h'
      rcases h' with ⟨e, e'⟩ | ⟨e, e'⟩ | ⟨e, e'⟩ | ⟨e, e'⟩ <;> rw [e] at m <;> rw [e'] at m'
      · obtain ⟨p, hp, ha, hb⟩ := out _ _ (share12 _ m _ m' h)
        exact ⟨p, hp, Or.inl ⟨ha, hb⟩⟩
      · obtain ⟨p, hp, ha, hb⟩ := out _ _ (share12 _ m' _ m h.symm)
        exact ⟨p, hp, Or.inr ⟨ha, hb⟩⟩
      · obtain ⟨p, hp, ha, hb⟩ := out _ _ (share23 _ m _ m' h)
        exact ⟨p, hp, Or.inl ⟨ha, hb⟩⟩
      · obtain ⟨p, hp, ha, hb⟩ := out _ _ (share23 _ m' _ m h.symm)
        exact ⟨p, hp, Or.inr ⟨ha, hb⟩⟩
  · have same : ∀ p ∈ sharedKeys, usualKey (chequersAt p.1) = usualKey (chequersAt p.2) := by decide +kernel
    rintro (⟨rfl, rfl⟩ | ⟨p, hp, ⟨ha, hb⟩ | ⟨ha, hb⟩⟩)
    · rfl
    · have := same p hp
      rw [ha, hb] at this
      exact this
    · have := same p hp
      rw [ha, hb] at this
      exact this.symm

/-- C52_exact has instances: the pairs are positions, and of different numbers of chequers. -/
example : ∀ p ∈ sharedKeys, (chequersAt p.1).1.sum + (chequersAt p.1).2.sum = p.1.length ∧
    (chequersAt p.2).1.sum + (chequersAt p.2).2.sum = p.2.length ∧ p.2.length = p.1.length + 1 := by decide

end Bglib
