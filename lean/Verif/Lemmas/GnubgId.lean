import Verif.Model.GnubgId
import Verif.Lemmas.Base64
/-
Helper lemmas for the gnubg IDs: bits and bytes.
-/
namespace Bglib

/-! ### Bits of bytes -/

def lowBits (n b : Nat) : List Bool := (List.range n).map (fun j => b.testBit j)

theorem byteBits_eq (b : Nat) : byteBits b = lowBits 8 b := rfl

theorem byteBits_length (b : Nat) : (byteBits b).length = 8 := by simp [byteBits]

theorem lowBits_zero_tail (cnt byte : Nat) (h : byte < 2 ^ cnt) (k : Nat) :
    lowBits (cnt + k) byte = lowBits cnt byte ++ List.replicate k false := by
  induction k with
  | zero => simp
  | succ k ih =>
    rw [← Nat.add_assoc, lowBits, List.range_succ, List.map_append, ← lowBits, ih, List.append_assoc,
      List.replicate_succ']
    have : byte.testBit (cnt + k) = false :=
      Nat.testBit_lt_two_pow (Nat.lt_of_lt_of_le h (Nat.pow_le_pow_right (by omega) (by omega)))
    simp [this]

theorem or_shift (byte cnt : Nat) (b : Bool) (h : byte < 2 ^ cnt) :
    lowBits (cnt + 1) (byte ||| ((if b then 1 else 0) <<< cnt)) = lowBits cnt byte ++ [b] ∧
      (byte ||| ((if b then 1 else 0) <<< cnt)) < 2 ^ (cnt + 1) := by
  constructor
  · rw [lowBits, List.range_succ, List.map_append]
    congr 1
    · apply List.map_congr_left
      intro j hj
      have : j < cnt := by simpa using hj
      rw [Nat.testBit_or, Nat.testBit_shiftLeft]
      simp [show ¬ cnt ≤ j by omega]
    · simp only [List.map_cons, List.map_nil, Nat.testBit_or, Nat.testBit_shiftLeft,
        Nat.testBit_lt_two_pow h]
      cases b <;> simp
  · apply Nat.or_lt_two_pow
    · exact Nat.lt_of_lt_of_le h (Nat.pow_le_pow_right (by omega) (by omega))
    · cases b
      · simp [Nat.two_pow_pos]
      · simp only [if_true, Nat.shiftLeft_eq, Nat.one_mul]
        exact Nat.pow_lt_pow_right (by omega) (by omega)

theorem flatMap_zero_bytes (k : Nat) :
    (List.replicate k 0).flatMap byteBits = List.replicate (8 * k) false := by
  induction k with
  | zero => rfl
  | succ k ih =>
    rw [List.replicate_succ, List.flatMap_cons, ih]
    have : byteBits 0 = List.replicate 8 false := by decide
    rw [this, List.replicate_append_replicate]
    congr 1; omega

/-- Number of bytes written. -/
def packLen (cnt total L : Nat) : Nat :=
  (cnt + L) / 8 + (if (cnt + L) % 8 ≠ 0 then 1 else 0) + (9 - (total + (cnt + L) / 8))

theorem packBits_spec (bs : List Bool) : ∀ (byte cnt total : Nat), cnt < 8 → byte < 2 ^ cnt →
    (∃ z, (packBits byte cnt total bs).flatMap byteBits =
      lowBits cnt byte ++ bs ++ List.replicate z false) ∧
    (∀ x ∈ packBits byte cnt total bs, x < 256) ∧
    (packBits byte cnt total bs).length = packLen cnt total bs.length := by
  induction bs with
  | nil =>
    intro byte cnt total hc hb
    have h256 : byte < 256 := Nat.lt_of_lt_of_le hb
      (Nat.le_trans (Nat.pow_le_pow_right (by omega) (show cnt ≤ 8 by omega)) (by decide))
    refine ⟨?_, ?_, ?_⟩
    · unfold packBits
      by_cases h0 : cnt ≠ 0
      · refine ⟨(8 - cnt) + 8 * (9 - total), ?_⟩
        rw [if_pos h0, List.flatMap_append, flatMap_zero_bytes, List.flatMap_cons, List.flatMap_nil,
          List.append_nil, byteBits_eq, show 8 = cnt + (8 - cnt) by omega,
          lowBits_zero_tail cnt byte hb, ← List.replicate_append_replicate]
        simp only [List.append_assoc, List.append_nil]
        congr 2
        rw [show cnt + (8 - cnt) = 8 by omega]
      · refine ⟨8 * (9 - total), ?_⟩
        have h0 : cnt = 0 := by omega
        subst h0
        simp only [ne_eq, not_true_eq_false, if_false, List.nil_append, flatMap_zero_bytes]
        rfl
    · unfold packBits
      intro x hx
      simp only [List.mem_append, List.mem_replicate] at hx
      rcases hx with hx | hx
      · split at hx
        · simp at hx; omega
        · simp at hx
      · omega
    · unfold packBits packLen
      simp only [List.length_append, List.length_replicate, List.length_nil, Nat.add_zero]
      have h8 : cnt / 8 = 0 := by omega
      have h9 : cnt % 8 = cnt := by omega
      simp only [h8, h9]
      split <;> simp
  | cons b bs ih =>
    intro byte cnt total hc hb
    obtain ⟨hl, hlt⟩ := or_shift byte cnt b hb
    rw [packBits]
    by_cases h8 : cnt + 1 < 8
    · rw [if_pos h8]
      obtain ⟨⟨z, hz⟩, h2, h3⟩ := ih _ (cnt + 1) total h8 hlt
      refine ⟨⟨z, ?_⟩, h2, ?_⟩
      · rw [hz, hl]; simp
      · rw [h3]; unfold packLen
        simp only [List.length_cons, show cnt + 1 + bs.length = cnt + (bs.length + 1) by omega]
    · rw [if_neg h8]
      have hc7 : cnt = 7 := by omega
      obtain ⟨⟨z, hz⟩, h2, h3⟩ := ih 0 0 (total + 1) (by omega) (by decide)
      refine ⟨⟨z, ?_⟩, ?_, ?_⟩
      · rw [List.flatMap_cons, hz, byteBits_eq]
        subst hc7
        rw [hl]; simp [lowBits]
      · intro x hx
        rcases List.mem_cons.1 hx with hx | hx
        · subst hc7; subst hx; exact hlt
        · exact h2 x hx
      · subst hc7
        rw [List.length_cons, h3]; unfold packLen
        simp only [List.length_cons]
        have e1 : (7 + (bs.length + 1)) / 8 = (0 + bs.length) / 8 + 1 := by omega
        have e2 : (7 + (bs.length + 1)) % 8 = (0 + bs.length) % 8 := by omega
        simp only [e1, e2]; omega

/-! ### Runs -/

theorem runs_replicate (k : Nat) : ∀ (n : Int) (bs : List Bool),
    runs n (List.replicate k true ++ bs) = runs (n + k) bs := by
  induction k with
  | zero => intro n bs; simp
  | succ k ih =>
    intro n bs
    rw [List.replicate_succ, List.cons_append, runs, ih]
    congr 1; omega

theorem runs_seqBits (xs : List Int) (h : ∀ x ∈ xs, 0 ≤ x) (bs : List Bool) :
    runs 0 (seqBits xs ++ bs) = xs ++ runs 0 bs := by
  induction xs with
  | nil => rfl
  | cons x xs ih =>
    have hx : 0 ≤ x := h x (by simp)
    rw [seqBits, List.append_assoc, runs_replicate, List.cons_append, runs, List.cons_append,
      ih (fun y hy => h y (List.mem_cons_of_mem _ hy))]
    congr 1; omega

theorem runs_length_pos (bs : List Bool) : ∀ n, (runs n bs) ≠ [] := by
  induction bs with
  | nil => intro n; simp [runs]
  | cons b bs ih => intro n; cases b <;> simp [runs, ih]

theorem runs_nonneg (bs : List Bool) : ∀ n, 0 ≤ n → ∀ x ∈ runs n bs, 0 ≤ x := by
  induction bs with
  | nil => intro n hn x hx; simp [runs] at hx; omega
  | cons b bs ih =>
    intro n hn x hx
    cases b
    · simp only [runs, List.mem_cons] at hx
      rcases hx with hx | hx
      · omega
      · exact ih 0 (by omega) x hx
    · simp only [runs] at hx
      exact ih (n + 1) (by omega) x hx

/-- Length of a run list: zeros of the bit list plus one. -/
theorem runs_length (bs : List Bool) : ∀ n, (runs n bs).length = bs.count false + 1 := by
  induction bs with
  | nil => intro n; rfl
  | cons b bs ih => intro n; cases b <;> simp [runs, ih]

theorem seqBits_length (xs : List Int) (h : ∀ x ∈ xs, 0 ≤ x) :
    ((seqBits xs).length : Int) = xs.length + xs.sum := by
  induction xs with
  | nil => rfl
  | cons x xs ih =>
    have hx : 0 ≤ x := h x (by simp)
    have := ih (fun y hy => h y (List.mem_cons_of_mem _ hy))
    simp only [seqBits, List.length_append, List.length_replicate, List.length_cons, List.sum_cons]
    omega

theorem seq2bytes_spec (xs : List Int) :
    (∃ z, (seq2bytes xs).flatMap byteBits = seqBits xs ++ List.replicate z false) ∧
    (∀ x ∈ seq2bytes xs, x < 256) ∧
    (seq2bytes xs).length = packLen 0 0 (seqBits xs).length := by
  obtain ⟨⟨z, h1⟩, h2, h3⟩ := packBits_spec (seqBits xs) 0 0 0 (by omega) (by decide)
  exact ⟨⟨z, by simpa [lowBits, seq2bytes] using h1⟩, h2, h3⟩

theorem decodePosition_encode (a b : List Int) (ha : a.length = 25) (hb : b.length = 25)
    (na : ∀ x ∈ a, 0 ≤ x) (nb : ∀ x ∈ b, 0 ≤ x) :
    decodePosition (encodePosition (a, b)) = .ok (a, b) := by
  obtain ⟨⟨z, h1⟩, h2, h3⟩ := seq2bytes_spec (a ++ b)
  unfold decodePosition encodePosition twosideEncode
  rw [decodeText_encode _ h2]
  have hn : ∀ x ∈ a ++ b, 0 ≤ x := by
    intro x hx; exact (List.mem_append.1 hx).elim (na x) (nb x)
  have hseq : byts2seq (seq2bytes (a ++ b)) = a ++ (b ++ runs 0 (List.replicate z false)) := by
    unfold byts2seq; rw [h1, runs_seqBits _ hn, List.append_assoc]
  have htd : twosideDecode (seq2bytes (a ++ b)) = (a, b) := by
    unfold twosideDecode
    rw [hseq]
    simp only [Prod.mk.injEq]
    constructor
    · rw [List.take_append_of_le_length (by omega), List.take_of_length_le (by omega)]
    · rw [← List.append_assoc, List.take_append_of_le_length (by simp; omega),
        List.take_of_length_le (by simp; omega), List.drop_append_of_le_length (by omega),
        List.drop_of_length_le (by omega), List.nil_append]
  simp only [bind, Except.bind, htd, ha, hb, and_self, if_true, pure, Except.pure]

/-! ### Bytes are determined by their bits -/

theorem byteBits_inj (x y : Nat) (hx : x < 256) (hy : y < 256) (h : byteBits x = byteBits y) : x = y := by
  apply Nat.eq_of_testBit_eq
  intro i
  by_cases hi : i < 8
  · have := congrArg (fun l => l[i]?) h
    simpa [byteBits, hi] using this
  · have h8 : (256 : Nat) ≤ 2 ^ i := by
      calc 256 = 2 ^ 8 := rfl
        _ ≤ 2 ^ i := Nat.pow_le_pow_right (by omega) (by omega)
    rw [Nat.testBit_lt_two_pow (by omega), Nat.testBit_lt_two_pow (by omega)]

theorem bytes_eq_of_bits : ∀ (xs ys : List Nat), (∀ x ∈ xs, x < 256) → (∀ y ∈ ys, y < 256) →
    xs.flatMap byteBits = ys.flatMap byteBits → xs = ys
  | [], [], _, _, _ => rfl
  | [], y :: ys, _, _, h => by
    have := congrArg List.length h
    simp [byteBits_length] at this
    try omega
  | x :: xs, [], _, _, h => by
    have := congrArg List.length h
    simp [byteBits_length] at this
    try omega
  | x :: xs, y :: ys, hx, hy, h => by
    rw [List.flatMap_cons, List.flatMap_cons] at h
    obtain ⟨h1, h2⟩ := List.append_inj h (by simp [byteBits_length])
    rw [byteBits_inj x y (hx x (by simp)) (hy y (by simp)) h1,
      bytes_eq_of_bits xs ys (fun a ha => hx a (List.mem_cons_of_mem _ ha))
        (fun a ha => hy a (List.mem_cons_of_mem _ ha)) h2]

theorem bytes_length_bits (xs : List Nat) : (xs.flatMap byteBits).length = 8 * xs.length := by
  induction xs with
  | nil => rfl
  | cons x xs ih => simp [byteBits_length, ih]; omega

/-! ### Values of bit lists -/

theorem natBits_length (w v : Nat) : (natBits w v).length = w := by
  induction w generalizing v with
  | zero => rfl
  | succ w ih => simp [natBits, ih]

theorem bitsVal_natBits (w v : Nat) (h : v < 2 ^ w) : bitsVal (natBits w v) = v := by
  induction w generalizing v with
  | zero => simp at h; simp [natBits, bitsVal, h]
  | succ w ih =>
    rw [Nat.pow_succ] at h
    rw [natBits, bitsVal, ih (v / 2) (by omega)]
    rcases Nat.mod_two_eq_zero_or_one v with hv | hv <;> simp [hv] <;> omega

theorem bitsVal_lt (bs : List Bool) : bitsVal bs < 2 ^ bs.length := by
  induction bs with
  | nil => simp [bitsVal]
  | cons b bs ih =>
    rw [bitsVal, List.length_cons, Nat.pow_succ]
    split <;> omega

theorem natBits_bitsVal (bs : List Bool) : natBits bs.length (bitsVal bs) = bs := by
  induction bs with
  | nil => rfl
  | cons b bs ih =>
    rw [List.length_cons, natBits, bitsVal]
    have : ((if b then 1 else 0) + 2 * bitsVal bs) / 2 = bitsVal bs := by split <;> omega
    rw [this, ih]
    congr 1
    cases b
    · have : (0 + 2 * bitsVal bs) % 2 = 0 := by omega
      simp
    · have : (1 + 2 * bitsVal bs) % 2 = 1 := by omega
      simp [this]

theorem lowBits_natBits : ∀ w b, lowBits w b = natBits w b := by
  intro w
  induction w with
  | zero => intro b; rfl
  | succ w ih =>
    intro b
    rw [lowBits, List.range_succ_eq_map, List.map_cons, natBits, List.map_map, ← ih (b / 2)]
    congr 1
    · rw [Nat.testBit_zero]; rcases Nat.mod_two_eq_zero_or_one b with h | h <;> simp [h]
    · apply List.map_congr_left
      intro j _
      simp [Nat.testBit_succ]

theorem byteBits_natBits (b : Nat) : byteBits b = natBits 8 b := lowBits_natBits 8 b

/-! ### Match bits -/

theorem bitsToBytes_bits : ∀ (n : Nat) (d : List Bool), d.length ≤ 8 * n →
    (bitsToBytes n d).flatMap byteBits = d ++ List.replicate (8 * n - d.length) false
  | 0, d, h => by
    have : d = [] := List.eq_nil_of_length_eq_zero (by omega)
    subst this; rfl
  | n + 1, d, h => by
    rw [bitsToBytes, List.flatMap_cons, bitsToBytes_bits n (d.drop 8) (by simp; omega)]
    by_cases h8 : 8 ≤ d.length
    · have hl : (d.take 8).length = 8 := by simp; omega
      have : byteBits (bitsVal (d.take 8)) = d.take 8 := by
        rw [byteBits_natBits]
        have := natBits_bitsVal (d.take 8)
        rwa [hl] at this
      rw [this, ← List.append_assoc, List.take_append_drop]
      congr 2
      simp; omega
    · have hd : d.take 8 = d := List.take_of_length_le (by omega)
      rw [hd, List.drop_of_length_le (by omega)]
      have hlt : bitsVal d < 2 ^ d.length := bitsVal_lt d
      have : byteBits (bitsVal d) = d ++ List.replicate (8 - d.length) false := by
        rw [byteBits_eq, show 8 = d.length + (8 - d.length) by omega,
          lowBits_zero_tail _ _ hlt, show d.length + (8 - d.length) = 8 by omega]
        congr 1
        have h := natBits_bitsVal d
        rw [lowBits_natBits, h]
      rw [this, List.append_assoc]
      congr 1
      simp only [List.length_nil, List.nil_append, Nat.sub_zero]
      rw [List.replicate_append_replicate]
      congr 1; omega

theorem bitsToBytes_lt (n : Nat) : ∀ d, ∀ x ∈ bitsToBytes n d, x < 256 := by
  induction n with
  | zero => intro d x hx; simp [bitsToBytes] at hx
  | succ n ih =>
    intro d x hx
    rw [bitsToBytes, List.mem_cons] at hx
    rcases hx with hx | hx
    · have h := bitsVal_lt (d.take 8)
      have : 2 ^ (d.take 8).length ≤ 2 ^ 8 := Nat.pow_le_pow_right (by omega) (by simp; omega)
      omega
    · exact ih _ x hx

theorem bitsToBytes_length (n : Nat) : ∀ d, (bitsToBytes n d).length = n := by
  induction n with
  | zero => intro d; rfl
  | succ n ih => intro d; simp [bitsToBytes, ih]

theorem decodeMatch_encode (d : List Bool) (h : d.length = 66) :
    decodeMatch (encodeMatch d) = .ok d := by
  unfold decodeMatch encodeMatch
  rw [decodeText_encode _ (bitsToBytes_lt 9 d)]
  simp only [bind, Except.bind, bitsToBytes_length, if_true, pure, Except.pure, bytesToMatch,
    Except.ok.injEq]
  rw [bitsToBytes_bits 9 d (by omega), List.take_append_of_le_length (by omega),
    List.take_of_length_le (by omega)]

theorem MField.bounds (f : MField) : f.start < f.stop ∧ f.stop ≤ 66 := by cases f <;> decide

theorem MField.disjoint (f g : MField) (h : f ≠ g) : f.stop ≤ g.start ∨ g.stop ≤ f.start := by
  cases f <;> cases g <;> first | exact absurd rfl h | decide

theorem writeField_length (d : List Bool) (h : d.length = 66) (f : MField) (v : Nat) :
    (writeField d f v).length = 66 := by
  have := f.bounds
  simp [writeField, natBits_length]; omega

theorem read_write_same (d : List Bool) (h : d.length = 66) (f : MField) (v : Nat)
    (hv : v < 2 ^ (f.stop - f.start)) : readField (writeField d f v) f = v := by
  have hb := f.bounds
  unfold readField writeField
  have h1 : (d.take f.start ++ natBits (f.stop - f.start) v).length = f.stop := by
    simp [natBits_length]; omega
  rw [List.take_append_of_le_length (by omega), List.take_of_length_le (by omega),
    List.drop_append_of_le_length (by simp; omega), List.drop_of_length_le (by simp; omega),
    List.nil_append, bitsVal_natBits _ _ hv]

theorem read_write_other (d : List Bool) (h : d.length = 66) (f g : MField) (v : Nat) (hfg : f ≠ g) :
    readField (writeField d f v) g = readField d g := by
  have hb := f.bounds
  have hg := g.bounds
  unfold readField
  congr 1
  apply List.ext_getElem?
  intro i
  simp only [List.getElem?_drop, List.getElem?_take]
  split
  · rename_i hi
    unfold writeField
    rcases MField.disjoint f g hfg with hd | hd
    · rw [List.getElem?_append_right (by simp [natBits_length]; omega), List.getElem?_drop]
      congr 1
      simp [natBits_length]; omega
    · rw [List.append_assoc, List.getElem?_append_left (by simp; omega), List.getElem?_take,
        if_pos (by omega)]
  · rfl

end Bglib
