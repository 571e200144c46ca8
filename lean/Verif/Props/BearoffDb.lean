import Verif.Spec.BearoffDb
import Verif.Props.Bearoff
import Verif.Model.GnubgId
import Verif.Model.Regex
import Mathlib.Data.Nat.Sqrt
import Mathlib.Tactic.Ring
/-
C82: a bear-off database gives the record of the position asked for.
-/
namespace Bglib
open Spec

/-! ### Records -/

private theorem word_bytes (w : Nat) (h : w < 2 ^ 32) :
    unpackSingle (w % 256) (w / 256 % 256) (w / 65536 % 256) (w / 16777216) = singleValue w := by
  have e1 : w / 16777216 / 128 = w / 2 ^ 31 := by omega
  have e2 : w / 16777216 % 128 * 2 + w / 65536 % 256 / 128 = w / 2 ^ 23 % 256 := by omega
  have e3 : w / 65536 % 256 % 128 * 65536 + w / 256 % 256 * 256 + w % 256 = w % 2 ^ 23 := by omega
  unfold unpackSingle singleValue magnitude
  simp only [e1, e2, e3]
  by_cases c1 : w / 2 ^ 23 % 256 = 255
  · simp only [c1, if_true]
  · simp only [c1, if_false]
    by_cases c2 : w / 2 ^ 23 % 256 = 0
    · simp only [c2, if_true]; split <;> rfl
    · simp only [c2, if_false, Nat.add_comm (w % 2 ^ 23) 8388608]; split <;> rfl

private theorem bytes_length (r : Record) : r.bytes.length = 16 := rfl

private theorem dbFile_length (l : List Record) : (dbFile l).length = 16 * l.length := by
  unfold dbFile
  induction l with
  | nil => rfl
  | cons r l ih => rw [List.flatMap_cons, List.length_append, ih, bytes_length, List.length_cons]; omega

private theorem dbFile_at (l : List Record) (i : Nat) (r : Record) (h : l[i]? = some r) :
    ((dbFile l).drop (i * 16)).take 16 = r.bytes := by
  induction l generalizing i with
  | nil => simp at h
  | cons s l ih =>
    show ((s.bytes ++ dbFile l).drop (i * 16)).take 16 = r.bytes
    cases i with
    | zero =>
      rw [List.getElem?_cons_zero] at h
      obtain rfl := Option.some.inj h
      rw [Nat.zero_mul, List.drop_zero, List.take_left' (bytes_length s)]
    | succ i =>
      rw [List.getElem?_cons_succ] at h
      rw [show (i + 1) * 16 = 16 + i * 16 by omega, ← List.drop_drop, List.drop_left' (bytes_length s)]
      exact ih i h

private theorem unpack_record (r : Record) (h : r.Ok) : unpackFour r.bytes = .ok r.values := by
  obtain ⟨h1, h2, h3, h4⟩ := h
  show Except.ok (unpackSingle _ _ _ _, unpackSingle _ _ _ _, unpackSingle _ _ _ _, unpackSingle _ _ _ _) = _
  rw [word_bytes _ h1, word_bytes _ h2, word_bytes _ h3, word_bytes _ h4]
  rfl

/-- **C82** `dump` gives the four values of the record with the index asked for, however the file is read; behind
the last record it raises `IndexError`. -/
theorem C82_dump (l : List Record) (hl : ∀ r ∈ l, r.Ok) (plan : List Nat) (i : Nat) :
    dbDump (dbFile l) plan i = match l[i]? with
      | some r => .ok r.values
      | none => .error .indexError := by
  unfold dbDump
  rw [C27_read, dbFile_length]
  cases h : l[i]? with
  | none =>
    have := List.getElem?_eq_none_iff.1 h
    rw [if_neg (by omega)]
    rfl
  | some r =>
    have := (List.getElem?_eq_some_iff.1 h).1
    rw [if_pos (by omega), dbFile_at l i r h]
    exact unpack_record r (hl r (List.mem_of_getElem? h))

/-- **C82** `human_readable(n)` of Trice's database gives record number `n`, counted from 1; the equities with the
cube on a side are doubled, the other two values are those of the record.  Number 0 and numbers behind the last
are refused. -/
theorem C82_human (l : List Record) (hl : ∀ r ∈ l, r.Ok) (plan : List Nat) :
    (∀ i, triceHuman (dbFile l) plan ((i : Nat) + 1) = match l[i]? with
      | some r => .ok (singleValue r.center, (singleValue r.opponent).twice, (singleValue r.roller).twice,
          singleValue r.chance)
      | none => .error .indexError) ∧
    ∀ n : Int, n ≤ 0 → triceHuman (dbFile l) plan n = .error .ioError := by
  constructor
  · intro i
    unfold triceHuman
    rw [show ((i : Nat) : Int) + 1 - 1 = (i : Nat) by omega, C82_dump l hl plan i]
    cases l[i]? <;> rfl
  · intro n hn
    unfold triceHuman dbDump
    rw [C27_negative _ _ _ _ (by omega) (by decide)]
    rfl

/-- Singles: 1.0 is `3f800000`, -2.0 is `c0000000`; the third value of the fourth test of trice_test.py,
0.8888888955116272, is twice `3ee38e39`. -/
example : singleValue 0x3f800000 = .fin (2 ^ 149) ∧ singleValue 0xc0000000 = .fin (- 2 ^ 150) ∧
    singleValue 0x3ee38e39 = .fin (14913081 * 2 ^ 124) ∧
    (singleValue 0x3ee38e39).twice = singleValue 0x3f638e39 ∧
    triceHuman (dbFile [⟨0x3f800000, 0x3f800000, 0x3f800000, 0x3f800000⟩]) [3, 5] 1 =
      .ok (.fin (2 ^ 149), .fin (2 ^ 150), .fin (2 ^ 150), .fin (2 ^ 149)) := by decide +kernel

private theorem magnitude_step (w : Nat) (h : w + 1 < 2 ^ 31) : magnitude w < magnitude (w + 1) := by
  unfold magnitude
  simp only []
  by_cases hf : w % 2 ^ 23 + 1 = 2 ^ 23
  · have e1 : (w + 1) % 2 ^ 23 = 0 := by omega
    have e2 : (w + 1) / 2 ^ 23 % 256 = w / 2 ^ 23 % 256 + 1 := by omega
    rw [e1, e2, if_neg (show ¬ w / 2 ^ 23 % 256 + 1 = 0 by omega)]
    by_cases c : w / 2 ^ 23 % 256 = 0
    · rw [if_pos c, c]; omega
    · rw [if_neg c]
      obtain ⟨k, hk⟩ : ∃ k, w / 2 ^ 23 % 256 = k + 1 := ⟨_, (Nat.succ_pred_eq_of_ne_zero c).symm⟩
      rw [hk, Nat.add_sub_cancel, Nat.add_sub_cancel, Nat.pow_succ 2 k]
      have : w % 2 ^ 23 = 2 ^ 23 - 1 := by omega
      rw [this, ← Nat.mul_assoc, Nat.mul_right_comm]
      exact Nat.mul_lt_mul_of_pos_right (by decide) (Nat.two_pow_pos k)
  · have e1 : (w + 1) % 2 ^ 23 = w % 2 ^ 23 + 1 := by omega
    have e2 : (w + 1) / 2 ^ 23 % 256 = w / 2 ^ 23 % 256 := by omega
    rw [e1, e2]
    by_cases c : w / 2 ^ 23 % 256 = 0
    · rw [if_pos c, if_pos c]; omega
    · rw [if_neg c, if_neg c]
      exact Nat.mul_lt_mul_of_pos_right (by omega) (Nat.two_pow_pos _)

/-- **C82** Nothing is lost in the values: of two singles that are not negative the one with the larger pattern
has the larger value (so different patterns have different values). -/
theorem C82_order (w v : Nat) (h : w < v) (hv : v < 255 * 2 ^ 23) :
    ∃ a b, singleValue w = .fin a ∧ singleValue v = .fin b ∧ a < b := by
  have hs : ∀ u, u < 255 * 2 ^ 23 → singleValue u = .fin (magnitude u) := by
    intro u hu
    unfold singleValue
    rw [if_neg (by omega), if_neg (by omega)]
  refine ⟨_, _, hs w (by omega), hs v hv, ?_⟩
  have : ∀ d, w + d + 1 < 2 ^ 31 → magnitude w < magnitude (w + d + 1) := by
    intro d
    induction d with
    | zero => intro hd; exact magnitude_step w hd
    | succ d ih => intro hd; exact Nat.lt_trans (ih (by omega)) (magnitude_step _ hd)
  have := this (v - w - 1) (by omega)
  rw [show w + (v - w - 1) + 1 = v by omega] at this
  omega

example : (0x3f800000 : Nat) < 0x3f800001 ∧ 0x3f800001 < 255 * 2 ^ 23 := by decide

/-! ### Numbers of positions -/

private theorem pair_bounds (a b : Nat) : max a b * max a b < pairNumber a b ∧
    pairNumber a b ≤ (max a b + 1) * (max a b + 1) := by
  unfold pairNumber
  split
  · rename_i h
    rw [Nat.max_eq_left h]
    have : (a + 1) * (a + 1) = a * a + 2 * a + 1 := by ring
    omega
  · rename_i h
    rw [Nat.max_eq_right (by omega)]
    have : (b + 1) * (b + 1) = b * b + 2 * b + 1 := by ring
    omega

/-- **C82** (the numbering the authors' data follow) Different pairs have different numbers, and the pairs of
numbers below `n` are numbered 1 to `n * n`. -/
theorem C82_pairs (n : Nat) :
    (∀ a b a' b', pairNumber a b = pairNumber a' b' → a = a' ∧ b = b') ∧
    ∀ k, (∃ a b, a < n ∧ b < n ∧ pairNumber a b = k) ↔ 1 ≤ k ∧ k ≤ n * n := by
  have hsq : ∀ x y : Nat, x < y → (x + 1) * (x + 1) ≤ y * y := fun x y h => Nat.mul_le_mul h h
  constructor
  · intro a b a' b' h
    have h1 := pair_bounds a b
    have h2 := pair_bounds a' b'
    have hm : max a b = max a' b' := by
      rcases Nat.lt_trichotomy (max a b) (max a' b') with hlt | he | hlt
      · have := hsq _ _ hlt; omega
      · exact he
      · have := hsq _ _ hlt; omega
    unfold pairNumber at h
    split at h <;> split at h
    · have : a = a' := by omega
      subst this; omega
    · have : a = b' := by omega
      subst this; omega
    · have : b = a' := by omega
      subst this; omega
    · have : b = b' := by omega
      subst this; omega
  · intro k
    constructor
    · rintro ⟨a, b, ha, hb, rfl⟩
      have h1 := pair_bounds a b
      have h2 := hsq (max a b) n (by omega)
      omega
    · rintro ⟨h1, h2⟩
      have s1 := Nat.sqrt_le' (k - 1)
      have s2 := Nat.lt_succ_sqrt' (k - 1)
      generalize Nat.sqrt (k - 1) = m at s1 s2
      have e1 : m ^ 2 = m * m := by ring
      have e2 : (m + 1) ^ 2 = m * m + 2 * m + 1 := by ring
      rw [Nat.succ_eq_add_one] at s2
      have hmn : m < n := by
        by_contra hc
        have := Nat.mul_le_mul (Nat.le_of_not_lt hc) (Nat.le_of_not_lt hc)
        omega
      by_cases c : k - 1 - m * m ≤ m
      · refine ⟨m, k - 1 - m * m, hmn, by omega, ?_⟩
        unfold pairNumber; rw [if_pos c]; omega
      · refine ⟨2 * m - (k - 1 - m * m), m, by omega, hmn, ?_⟩
        unfold pairNumber; rw [if_neg (by omega)]; omega

/-- **C82** So the pairs of positions of at most 15 chequers on 6 points have different numbers from 1 to
54264 * 54264, and every such number is that of a pair. -/
theorem C82_number :
    (∀ us them, OnPoints us 6 15 → OnPoints them 6 15 → ∃ k, triceNumber us them = .ok k ∧ 1 ≤ k ∧ k ≤ 54264 * 54264) ∧
    (∀ us them us' them', OnPoints us 6 15 → OnPoints them 6 15 → OnPoints us' 6 15 → OnPoints them' 6 15 →
      triceNumber us them = triceNumber us' them' → us = us' ∧ them = them') ∧
    ∀ k, 1 ≤ k → k ≤ 54264 * 54264 → ∃ us them, OnPoints us 6 15 ∧ OnPoints them 6 15 ∧
      triceNumber us them = .ok k := by
  have hch : (6 + 15).choose 15 = 54264 := by decide +kernel
  have heq : ∀ us them a b, onesideIndex us 6 15 = .ok a → onesideIndex them 6 15 = .ok b →
      triceNumber us them = .ok (pairNumber a b) := by
    intro us them a b h1 h2
    unfold triceNumber
    rw [h1, h2]; rfl
  refine ⟨?_, ?_, ?_⟩
  · intro us them h1 h2
    obtain ⟨a, ea, la⟩ := C24_range us 6 15 (by decide) h1
    obtain ⟨b, eb, lb⟩ := C24_range them 6 15 (by decide) h2
    rw [hch] at la lb
    exact ⟨_, heq _ _ _ _ ea eb, ((C82_pairs 54264).2 _).1 ⟨a, b, la, lb, rfl⟩⟩
  · intro us them us' them' h1 h2 h3 h4 h
    obtain ⟨a, ea, -⟩ := C24_range us 6 15 (by decide) h1
    obtain ⟨b, eb, -⟩ := C24_range them 6 15 (by decide) h2
    obtain ⟨a', ea', -⟩ := C24_range us' 6 15 (by decide) h3
    obtain ⟨b', eb', -⟩ := C24_range them' 6 15 (by decide) h4
    rw [heq _ _ _ _ ea eb, heq _ _ _ _ ea' eb'] at h
    obtain ⟨e1, e2⟩ := (C82_pairs 0).1 _ _ _ _ (Except.ok.inj h)
    exact ⟨C24_injective _ _ 6 15 (by decide) h1 h3 (by rw [ea, ea', e1]),
      C24_injective _ _ 6 15 (by decide) h2 h4 (by rw [eb, eb', e2])⟩
  · intro k h1 h2
    obtain ⟨a, b, la, lb, rfl⟩ := ((C82_pairs 54264).2 k).2 ⟨h1, h2⟩
    obtain ⟨us, hu, eu⟩ := C24_surjective 6 15 a (by decide) (by rw [hch]; exact la)
    obtain ⟨them, ht, et⟩ := C24_surjective 6 15 b (by decide) (by rw [hch]; exact lb)
    exact ⟨us, them, hu, ht, heq _ _ _ _ eu et⟩

/-- **C82** The numbering agrees with all numbers the authors give: the table of t2k.py and the positions of
trice_test.py (a position ID names the opponent first). -/
theorem C82_authors : (∀ row ∈ triceTable, triceNumber row.2.1 row.2.2 = .ok row.1) ∧
    ∀ x ∈ [(t!"AQAABAAAAAAAAA", 3), (t!"AQAAGAAAAAAAAA", 171), (t!"zyYAABxPAAAAAA", 10314995),
        (t!"XhUAADo3AAAAAA", 15235967), (t!"bxQAALALAAAAAA", 3188889), (t!"tC8AAOzkAAAAAA", 24281655)],
      (match decodePosition x.1 with
        | .ok (opp, us) => triceNumber ((us.take 6).map Int.toNat) ((opp.take 6).map Int.toNat)
        | .error e => .error e) = .ok x.2 := by decide +kernel

/-- **C82** is false of the code, in each reader.  `trice_indexing` says 0 for every position, which is right of
none of the positions of trice_test.py (the tests ask for the number less one). -/
theorem C82_false_indexing : (∀ p : Text, triceIndexing p = 0) ∧
    ∀ x ∈ [(t!"AQAABAAAAAAAAA", 3), (t!"AQAAGAAAAAAAAA", 171), (t!"zyYAABxPAAAAAA", 10314995),
        (t!"XhUAADo3AAAAAA", 15235967), (t!"bxQAALALAAAAAA", 3188889), (t!"tC8AAOzkAAAAAA", 24281655)],
      triceIndexing (x.1 ++ t!":cAkAAAAAAAAA") + 1 ≠ x.2 := ⟨fun _ => rfl, by decide⟩

/-- **C82** `t2k` of trice.py does not follow the authors' table either, whatever (correct) `C_Hash` is used and
whatever number the counting starts with. -/
theorem C82_false_t2k (H : HashPair) (hH : H.Ok) (first : Int) :
    ¬ ∀ row ∈ triceTable, (triceT2k H row.2.1 row.2.2 : Int) + first = row.1 := by
  intro h
  have h1 := h (1, [0,0,0,0,0,0], [0,0,0,0,0,0]) (by decide)
  have h2 := h (49, [0,0,0,0,0,0], [0,0,0,0,0,1]) (by decide)
  have e1 : triceT2k H [0,0,0,0,0,0] [0,0,0,0,0,0] = 0 := rfl
  have e2 : triceT2k H [0,0,0,0,0,0] [0,0,0,0,0,1] =
      1 + H.hash (false :: unary [0,0,0,0,0,0,0,0,0,0,0,1]) 1 := rfl
  have := hH.range (false :: unary [0,0,0,0,0,0,0,0,0,0,0,1]) 1 (by decide)
  have e3 : (false :: unary [0,0,0,0,0,0,0,0,0,0,0,1]).length.choose 1 = 14 := by decide
  simp only [e1, e2] at h1 h2
  omega

example : rankPair.Ok := rankPair_ok

/-- **C82** Asking a database with a position (`db[key]`) always fails: `key_to_index` takes no key; and
`human_readable` of nori.py uses a name that is not defined. -/
theorem C82_false_getitem (file plan : List Nat) (key : Text) (n : Int) :
    dbGetItem file key = .error .typeError ∧ noriHuman file plan n = .error .nameError ∧
    gnubgDump n = .ok none := ⟨rfl, rfl, rfl⟩

/-- **C25**, remark: two of the authors' tests (nori_test.py:35-39) cannot both pass, as they ask the same number
for two positions; whatever (correct) `C_Hash` is used. -/
theorem C25_tests_conflict (H : HashPair) (hH : H.Ok) :
    ¬ (noriT2k H [1,1,0,0,0,0] = .ok 8 ∧ noriT2k H [1,0,1,0,0,0] = .ok 8) := by
  rintro ⟨h1, h2⟩
  have := C25_injective H hH [1,1,0,0,0,0] [1,0,1,0,0,0] ⟨rfl, by decide⟩ ⟨rfl, by decide⟩ (by rw [h1, h2])
  revert this; decide

end Bglib
