import Verif.Lemmas.GnubgId
import Verif.Spec.GnubgId
/-
C01-C06: GNU Backgammon position and match IDs.
-/
namespace Bglib
open Spec

theorem row_mem {r : List Int} (h : Row r) : ∀ x ∈ r, 0 ≤ x := by
  intro x hx
  obtain ⟨i, hi, rfl⟩ := List.mem_iff_getElem.1 hx
  have := h.2 i
  simpa [cnt, List.getD_eq_getElem?_getD, hi] using this

theorem row_of_mem {r : List Int} (hl : r.length = 25) (h : ∀ x ∈ r, 0 ≤ x) : Row r := by
  refine ⟨hl, fun i => ?_⟩
  unfold cnt
  by_cases hi : i < r.length
  · rw [List.getD_eq_getElem?_getD, List.getElem?_eq_getElem hi]
    exact h _ (List.getElem_mem hi)
  · rw [List.getD_eq_getElem?_getD, List.getElem?_eq_none (by omega)]; simp

/-! ### C01 -/

/-- **C01** Decoding the ID of a position gives the position back, for all rows of counts (no cap). -/
theorem C01_roundtrip (a b : List Int) (ha : Row a) (hb : Row b) :
    decodePosition (encodePosition (a, b)) = .ok (a, b) :=
  decodePosition_encode a b ha.1 hb.1 (row_mem ha) (row_mem hb)

example : Row initialRow ∧ Row (List.replicate 24 7 ++ [40]) := by
  constructor <;> exact row_of_mem (by decide) (by decide)

/-! ### C02 -/

/-- **C02** (first part) Different positions have different IDs. -/
theorem C02_distinct (a b c d : List Int) (ha : Row a) (hb : Row b) (hc : Row c) (hd : Row d)
    (h : encodePosition (a, b) = encodePosition (c, d)) : (a, b) = (c, d) := by
  have h1 := C01_roundtrip a b ha hb
  rw [h, C01_roundtrip c d hc hd] at h1
  injection h1 with h1
  exact h1.symm

theorem total_sum (r : List Int) : total r = r.sum := by
  unfold total; rw [List.sum_eq_foldr]

theorem enc_bytes_length (a b : List Int) (ha : Row a) (hb : Row b) (n : Nat)
    (hn : total a + total b = n) (hle : n ≤ 30) :
    (seq2bytes (a ++ b)).length = if n = 6 ∨ n = 14 ∨ n = 22 then 9 else 10 := by
  have hnn : ∀ x ∈ a ++ b, 0 ≤ x := fun x hx => (List.mem_append.1 hx).elim (row_mem ha x) (row_mem hb x)
  have hlen := seqBits_length (a ++ b) hnn
  rw [List.length_append, ha.1, hb.1, List.sum_append, ← total_sum, ← total_sum, hn] at hlen
  have hL : (seqBits (a ++ b)).length = 50 + n := by omega
  rw [(seq2bytes_spec (a ++ b)).2.2, hL]
  unfold packLen
  split <;> split <;> omega

/-- **C02** (second part, what the code does): with at most 15 chequers a side the ID has 14
characters, except with 6, 14 or 22 chequers in play, when it has 12. -/
theorem C02_length_partial (a b : List Int) (ha : Row a) (hb : Row b)
    (h15 : total a ≤ 15) (h15' : total b ≤ 15) :
    (encodePosition (a, b)).length =
      if total a + total b = 6 ∨ total a + total b = 14 ∨ total a + total b = 22 then 12 else 14 := by
  have hs : 0 ≤ total a + total b := by
    have h0 : ∀ l : List Int, (∀ x ∈ l, 0 ≤ x) → 0 ≤ l.sum := by
      intro l hl
      induction l with
      | nil => simp
      | cons x xs ih =>
        have := hl x (by simp)
        have := ih (fun y hy => hl y (List.mem_cons_of_mem _ hy))
        rw [List.sum_cons]; omega
    have h1 := h0 a (row_mem ha)
    have h2 := h0 b (row_mem hb)
    rw [total_sum, total_sum]; omega
  obtain ⟨n, hn⟩ := Int.eq_ofNat_of_zero_le hs
  unfold encodePosition twosideEncode
  rw [rstrip_encode _ (seq2bytes_spec _).2.1, b64raw_length,
    enc_bytes_length a b ha hb n hn (by omega)]
  simp only [hn]
  by_cases c : n = 6 ∨ n = 14 ∨ n = 22
  · rw [if_pos c, if_pos (by omega)]
  · rw [if_neg c, if_neg (by omega)]

/-- **C02** is false as stated: a legal endgame position, three chequers a side, gets an ID of 12
characters. -/
theorem C02_length_false : ∃ a b : List Int, Row a ∧ Row b ∧ total a ≤ 15 ∧ total b ≤ 15 ∧
    (encodePosition (a, b)).length ≠ 14 :=
  ⟨3 :: List.replicate 24 0, 3 :: List.replicate 24 0, row_of_mem (by decide) (by decide),
    row_of_mem (by decide) (by decide), by decide, by decide, by decide⟩

theorem positionBits_eq (p : List Int × List Int) : positionBits p = seqBits (p.1 ++ p.2) := by
  unfold positionBits
  generalize p.1 ++ p.2 = xs
  induction xs with
  | nil => rfl
  | cons x xs ih => simp [seqBits, ih]

theorem keyByte_bits (bits : List Bool) (i : Nat) :
    keyByte bits i < 256 ∧
      byteBits (keyByte bits i) = (List.range 8).map (fun j => bits.getD (8 * i + j) false) := by
  have key : ∀ b0 b1 b2 b3 b4 b5 b6 b7 : Bool,
      let f := fun j => ([b0, b1, b2, b3, b4, b5, b6, b7] : List Bool).getD j false
      ((List.range 8).map (fun j => if f j then 2 ^ j else 0)).sum < 256 ∧
        byteBits ((List.range 8).map (fun j => if f j then 2 ^ j else 0)).sum =
          [b0, b1, b2, b3, b4, b5, b6, b7] := by decide
  have := key (bits.getD (8 * i + 0) false) (bits.getD (8 * i + 1) false) (bits.getD (8 * i + 2) false)
    (bits.getD (8 * i + 3) false) (bits.getD (8 * i + 4) false) (bits.getD (8 * i + 5) false)
    (bits.getD (8 * i + 6) false) (bits.getD (8 * i + 7) false)
  exact this

theorem flatMap_keyBytes (bits : List Bool) (n : Nat) (h : bits.length ≤ 8 * n) :
    ((List.range n).map (keyByte bits)).flatMap byteBits =
      bits ++ List.replicate (8 * n - bits.length) false := by
  have h1 : ∀ n, ((List.range n).map (keyByte bits)).flatMap byteBits =
      (List.range (8 * n)).map (fun k => bits.getD k false) := by
    intro n
    induction n with
    | zero => rfl
    | succ n ih =>
      rw [List.range_succ, List.map_append, List.flatMap_append, ih, Nat.mul_succ, List.range_add,
        List.map_append]
      congr 1
      simp only [List.map_cons, List.map_nil, List.flatMap_cons, List.flatMap_nil, List.append_nil]
      rw [(keyByte_bits bits n).2, List.map_map]
      rfl
  rw [h1]
  apply List.ext_getElem?
  intro k
  by_cases hk : k < bits.length
  · rw [List.getElem?_append_left hk]
    simp [show k < 8 * n by omega, hk]
  · rw [List.getElem?_append_right (by omega)]
    by_cases hk2 : k < 8 * n
    · simp [hk2, show k - bits.length < 8 * n - bits.length by omega,
        List.getElem?_eq_none (show bits.length ≤ k by omega)]
    · simp [hk2]; omega

/-- **C02** (third part) The ID is the standard GNU Backgammon ID, or, with 6, 14 or 22 chequers in play,
the standard ID with its last two characters `AA` missing. -/
theorem C02_standard (a b : List Int) (ha : Row a) (hb : Row b)
    (h15 : total a ≤ 15) (h15' : total b ≤ 15) :
    encodePosition (a, b) = positionId (a, b) ∨
      ((total a + total b = 6 ∨ total a + total b = 14 ∨ total a + total b = 22) ∧
        encodePosition (a, b) ++ ['A', 'A'] = positionId (a, b)) := by
  have hs : 0 ≤ total a + total b := by
    have h0 : ∀ l : List Int, (∀ x ∈ l, 0 ≤ x) → 0 ≤ l.sum := by
      intro l hl
      induction l with
      | nil => simp
      | cons x xs ih =>
        have := hl x (by simp)
        have := ih (fun y hy => hl y (List.mem_cons_of_mem _ hy))
        rw [List.sum_cons]; omega
    have h1 := h0 a (row_mem ha)
    have h2 := h0 b (row_mem hb)
    rw [total_sum, total_sum]; omega
  obtain ⟨n, hn⟩ := Int.eq_ofNat_of_zero_le hs
  have hnn : ∀ x ∈ a ++ b, 0 ≤ x := fun x hx => (List.mem_append.1 hx).elim (row_mem ha x) (row_mem hb x)
  have hlen := seqBits_length (a ++ b) hnn
  rw [List.length_append, ha.1, hb.1, List.sum_append, ← total_sum, ← total_sum, hn] at hlen
  have hL : (seqBits (a ++ b)).length = 50 + n := by omega
  obtain ⟨⟨z, hz⟩, hlt, _⟩ := seq2bytes_spec (a ++ b)
  have hbl := enc_bytes_length a b ha hb n hn (by omega)
  have hkl : (positionKey (a, b)).length = 10 := by simp [positionKey]
  have hklt : ∀ x ∈ positionKey (a, b), x < 256 := by
    intro x hx
    simp only [positionKey, List.mem_map] at hx
    obtain ⟨i, _, rfl⟩ := hx
    exact (keyByte_bits _ i).1
  have hkb : (positionKey (a, b)).flatMap byteBits =
      seqBits (a ++ b) ++ List.replicate (80 - (50 + n)) false := by
    unfold positionKey
    rw [positionBits_eq, flatMap_keyBytes _ 10 (by simp only [hL]; omega), hL]
  have hid : positionId (a, b) = b64raw (positionKey (a, b)) := by
    unfold positionId
    obtain ⟨p, hp⟩ := b64encode_eq (positionKey (a, b))
    have hr := b64raw_length (positionKey (a, b))
    rw [hkl] at hr
    rw [hp, List.take_append_of_le_length (by omega), List.take_of_length_le (by omega)]
  have hzl := congrArg List.length hz
  rw [bytes_length_bits, List.length_append, hL, List.length_replicate] at hzl
  unfold encodePosition twosideEncode
  rw [rstrip_encode _ hlt, hid]
  by_cases c : n = 6 ∨ n = 14 ∨ n = 22
  · right
    refine ⟨by omega, ?_⟩
    rw [if_pos c] at hbl
    have hk : positionKey (a, b) = seq2bytes (a ++ b) ++ [0] := by
      apply bytes_eq_of_bits _ _ hklt
      · intro y hy
        rcases List.mem_append.1 hy with h | h
        · exact hlt y h
        · simp at h; omega
      · rw [hkb, List.flatMap_append, hz]
        have : [0].flatMap byteBits = List.replicate 8 false := by decide
        rw [this, List.append_assoc, List.replicate_append_replicate]
        congr 2; omega
    rw [hk]
    match seq2bytes (a ++ b), hbl with
    | [x1, x2, x3, x4, x5, x6, x7, x8, x9], _ => rfl
  · left
    rw [if_neg c] at hbl
    have hk : positionKey (a, b) = seq2bytes (a ++ b) := by
      apply bytes_eq_of_bits _ _ hklt hlt
      rw [hkb, hz]
      congr 2; omega
    rw [hk]

example : Row initialRow ∧ total initialRow ≤ 15 ∧ total initialRow + total initialRow = 30 :=
  ⟨row_of_mem (by decide) (by decide), by decide, by decide⟩

/-! ### C03 -/

theorem b64Val_isB64 (c : Char) : (b64Val c).isSome = isB64 c := by
  unfold b64Val isB64 Char.isAlphanum Char.isAlpha Char.isUpper Char.isLower Char.isDigit
  have e : ∀ d : Char, (c ≥ d) = (d ≤ c) := fun _ => rfl
  by_cases h1 : 'A' ≤ c ∧ c ≤ 'Z'
  · rw [if_pos h1]; simp_all [Char.le_def]
  rw [if_neg h1]
  by_cases h2 : 'a' ≤ c ∧ c ≤ 'z'
  · rw [if_pos h2]; simp_all [Char.le_def]
  rw [if_neg h2]
  by_cases h3 : '0' ≤ c ∧ c ≤ '9'
  · rw [if_pos h3]; simp_all [Char.le_def]
  rw [if_neg h3]
  by_cases h4 : c = '+'
  · simp [h4]
  by_cases h5 : c = '/'
  · simp [h5]
  simp_all [Char.le_def]

theorem sextets_length (s : Text) : (sextets s).length = s.countP isB64 := by
  unfold sextets
  induction s with
  | nil => rfl
  | cons c cs ih =>
    rw [List.filterMap_cons, List.countP_cons, ← b64Val_isB64]
    cases h : b64Val c <;> simp [ih]

/-- **C03** What every text leads to: `TypeError` exactly with a `=` in it; no answer at all (the padding
loop never ends) exactly when the number of base64 characters is 4k+1; otherwise `DecodeError` or two
rows of 25 naturals. -/
theorem C03_outcome_partial (s : Text) :
    (decodePosition s = .error .typeError ∧ '=' ∈ s) ∨
    (decodePosition s = .error .diverges ∧ '=' ∉ s ∧ s.countP isB64 % 4 = 1) ∨
    (decodePosition s = .error .decodeError ∧ '=' ∉ s ∧ s.countP isB64 % 4 ≠ 1) ∨
    (∃ a b, decodePosition s = .ok (a, b) ∧ Row a ∧ Row b ∧ '=' ∉ s ∧ s.countP isB64 % 4 ≠ 1) := by
  unfold decodePosition
  rw [decodeText_eq, sextets_length]
  by_cases h : '=' ∈ s
  · left; rw [if_pos h]; exact ⟨rfl, h⟩
  · rw [if_neg h]
    by_cases h1 : s.countP isB64 % 4 = 1
    · right; left; rw [if_pos h1]; exact ⟨rfl, h, h1⟩
    · rw [if_neg h1]
      right; right
      simp only [bind, Except.bind, pure, Except.pure]
      split
      · rename_i hl
        right
        refine ⟨_, _, rfl, row_of_mem hl.1 ?_, row_of_mem hl.2 ?_, h, h1⟩
        · intro x hx
          exact runs_nonneg _ 0 (by omega) x (List.mem_of_mem_take hx)
        · intro x hx
          exact runs_nonneg _ 0 (by omega) x (List.mem_of_mem_take (List.mem_of_mem_drop hx))
      · left; exact ⟨rfl, h, h1⟩

/-- **C03** A position that was decoded, from whatever text, is well-formed and its ID decodes to the
same position. -/
theorem C03_reencode (s : Text) (p : List Int × List Int) (h : decodePosition s = .ok p) :
    Row p.1 ∧ Row p.2 ∧ decodePosition (encodePosition p) = .ok p := by
  rcases C03_outcome_partial s with h1 | h1 | h1 | ⟨a, b, h1, ha, hb, _⟩
  · rw [h1.1] at h; cases h
  · rw [h1.1] at h; cases h
  · rw [h1.1] at h; cases h
  · rw [h1] at h
    injection h with h
    subst h
    exact ⟨ha, hb, C01_roundtrip a b ha hb⟩

example : decodePosition ['v','z','s','A','A','F','h','u','2','x','F','A','B','A'] =
    .ok ([6,3,3,0,0,0,0,0,0,0,0,0,0,0,0,0,0,0,0,0,0,0,0,2,1],
      [0,3,2,2,2,3,0,0,1,0,0,0,0,0,0,0,0,1,0,0,1,0,0,0,0]) := by decide

/-- **C03** Which byte strings are accepted: those with at least 49 zero bits.  (The last of the 50 counts
need not be terminated by a zero.) -/
theorem C03_accepts (s : Text) (bytes : List Nat) (h : decodeText s = .ok bytes) :
    (∃ p, decodePosition s = .ok p) ↔ 49 ≤ (bytes.flatMap byteBits).count false := by
  unfold decodePosition
  rw [h]
  simp only [bind, Except.bind, pure, Except.pure, twosideDecode, List.length_drop, List.length_take]
  have hl : (byts2seq bytes).length = (bytes.flatMap byteBits).count false + 1 := runs_length _ 0
  rw [hl]
  split
  · rename_i hh
    exact ⟨fun _ => by omega, fun _ => ⟨_, rfl⟩⟩
  · rename_i hh
    constructor
    · rintro ⟨p, hp⟩; cases hp
    · intro hc; exact absurd ⟨by omega, by omega⟩ hh

/-- **C03** Characters outside base64 do not matter: they are skipped. -/
theorem C03_junk (s : Text) (h : '=' ∉ s) :
    decodePosition s = decodePosition (s.filter isB64) := by
  unfold decodePosition
  have hs : sextets (s.filter isB64) = sextets s := by
    unfold sextets
    induction s with
    | nil => rfl
    | cons c cs ih =>
      have ih := ih (fun hh => h (List.mem_cons_of_mem _ hh))
      rw [List.filter_cons]
      cases hb : isB64 c
      · have : b64Val c = none := by
          have := b64Val_isB64 c
          rw [hb] at this
          cases hv : b64Val c
          · rfl
          · simp [hv] at this
        simp [this, ih]
      · simp [List.filterMap_cons, ih]
  have h' : '=' ∉ s.filter isB64 := fun hh => h (List.mem_filter.1 hh).1
  rw [decodeText_eq, decodeText_eq, if_neg h, if_neg h', hs]

example : '=' ∉ ['4','H','-','P','w',' ','A'] := by decide

/-- **C03** is false as stated: for the text `A` (or the initial position's ID with its last character
lost) decoding neither returns nor raises, however many rounds of padding are made. -/
theorem C03_false : (∀ n, padLoop n ['A'] = none) ∧
    ∀ n, padLoop n ['4','H','P','w','A','T','D','g','c','/','A','B','M'] = none :=
  ⟨fun n => padLoop_none _ (by decide) (by decide) n, fun n => padLoop_none _ (by decide) (by decide) n⟩

/-! ### C04, C05 -/

/-- **C04** Decoding an encoded match state gives exactly the same 66 bits. -/
theorem C04_bits (d : List Bool) (h : d.length = 66) : decodeMatch (encodeMatch d) = .ok d :=
  decodeMatch_encode d h

theorem foldl_write (as : List (MField × Nat)) (has : ∀ a ∈ as, a.2 < 2 ^ (layout a.1).2) :
    ∀ (d : List Bool), d.length = 66 →
      (as.foldl (fun d a => writeField d a.1 a.2) d).length = 66 ∧
      ∀ f, readField (as.foldl (fun d a => writeField d a.1 a.2) d) f =
        lastAssigned f (readField d f) as := by
  induction as with
  | nil => intro d hd; exact ⟨hd, fun f => rfl⟩
  | cons a as ih =>
    intro d hd
    obtain ⟨g, v⟩ := a
    have hv : v < 2 ^ (g.stop - g.start) := by
      have := has (g, v) (by simp)
      have e : g.stop - g.start = (layout g).2 := by cases g <;> rfl
      rw [e]; exact this
    obtain ⟨h1, h2⟩ := ih (fun x hx => has x (List.mem_cons_of_mem _ hx)) (writeField d g v)
      (writeField_length d hd g v)
    refine ⟨h1, fun f => ?_⟩
    rw [List.foldl_cons, h2 f, lastAssigned]
    congr 1
    by_cases hgf : g = f
    · subst hgf; rw [if_pos rfl, read_write_same d hd g v hv]
    · rw [if_neg hgf, read_write_other d hd g f v hgf]

/-- **C04**, **C05** After any series of assignments that fit, in any order, encoding and decoding gives
for every field the value last assigned to it (0 if none was). -/
theorem C04_roundtrip (as : List (MField × Nat)) (has : ∀ a ∈ as, a.2 < 2 ^ (layout a.1).2) :
    ∃ d, decodeMatch (encodeMatch (as.foldl (fun d a => writeField d a.1 a.2) emptyBits)) = .ok d ∧
      ∀ f, readField d f = lastAssigned f 0 as := by
  obtain ⟨h1, h2⟩ := foldl_write as has emptyBits (by decide)
  refine ⟨_, C04_bits _ h1, fun f => ?_⟩
  rw [h2 f]
  congr 1
  cases f <;> decide

example : ∀ a ∈ [(MField.cube, 3), (.score2, 32767), (.die1, 6), (.cube, 15)],
    a.2 < 2 ^ (layout a.1).2 := by decide

/-- **C05** Assigning one field leaves every other field as it was. -/
theorem C05_independent (d : List Bool) (h : d.length = 66) (f g : MField) (v : Nat) (hfg : f ≠ g) :
    readField (writeField d f v) g = readField d g :=
  read_write_other d h f g v hfg

/-- **C05** A field reads back the value assigned, if it fits its width. -/
theorem C05_assigned (d : List Bool) (h : d.length = 66) (f : MField) (v : Nat)
    (hv : v < 2 ^ (layout f).2) : readField (writeField d f v) f = v := by
  apply read_write_same d h
  have e : f.stop - f.start = (layout f).2 := by cases f <;> rfl
  rw [e]; exact hv

/-- **C05** Every match ID has 12 characters, all of the base64 alphabet. -/
theorem C05_length (d : List Bool) : (encodeMatch d).length = 12 ∧ '=' ∉ encodeMatch d := by
  unfold encodeMatch
  rw [rstrip_encode _ (bitsToBytes_lt 9 d)]
  exact ⟨by rw [b64raw_length, bitsToBytes_length], b64raw_no_pad _ (bitsToBytes_lt 9 d)⟩

theorem bitsVal_append (l l' : List Bool) : bitsVal (l ++ l') = bitsVal l + 2 ^ l.length * bitsVal l' := by
  induction l with
  | nil => simp [bitsVal]
  | cons b l ih =>
    rw [List.cons_append, bitsVal, bitsVal, ih, List.length_cons, Nat.pow_succ, Nat.mul_add,
      Nat.mul_comm (2 ^ l.length) 2, Nat.mul_assoc, Nat.add_assoc]

theorem bitsVal_take (l : List Bool) (n : Nat) : bitsVal (l.take n) = bitsVal l % 2 ^ n := by
  by_cases h : n ≤ l.length
  · conv => rhs; rw [← List.take_append_drop n l, bitsVal_append]
    have hl : (l.take n).length = n := by simp; omega
    have := bitsVal_lt (l.take n)
    rw [hl] at this ⊢
    rw [Nat.add_mul_mod_self_left, Nat.mod_eq_of_lt this]
  · rw [List.take_of_length_le (by omega), Nat.mod_eq_of_lt]
    exact Nat.lt_of_lt_of_le (bitsVal_lt l) (Nat.pow_le_pow_right (by omega) (by omega))

theorem bitsVal_drop (l : List Bool) (n : Nat) : bitsVal (l.drop n) = bitsVal l / 2 ^ n := by
  by_cases h : n ≤ l.length
  · conv => rhs; rw [← List.take_append_drop n l, bitsVal_append]
    have hl : (l.take n).length = n := by simp; omega
    have := bitsVal_lt (l.take n)
    rw [hl] at this ⊢
    rw [Nat.add_mul_div_left _ _ (Nat.two_pow_pos n), Nat.div_eq_of_lt this, Nat.zero_add]
  · rw [List.drop_of_length_le (by omega), Nat.div_eq_of_lt]
    · rfl
    exact Nat.lt_of_lt_of_le (bitsVal_lt l) (Nat.pow_le_pow_right (by omega) (by omega))

theorem bitsVal_bytes (bs : List Nat) (h : ∀ b ∈ bs, b < 256) :
    bitsVal (bs.flatMap byteBits) = leNum bs := by
  induction bs with
  | nil => rfl
  | cons b bs ih =>
    rw [List.flatMap_cons, bitsVal_append, byteBits_length, ih (fun x hx => h x (List.mem_cons_of_mem _ hx)),
      byteBits_natBits, bitsVal_natBits 8 b (h b (by simp)), leNum]

/-- **C05** Every text that stands for nine bytes decodes, and every field is the number found at its
documented bit offset and width. -/
theorem C05_offsets (s : Text) (bytes : List Nat) (hb : decodeText s = .ok bytes)
    (hl : bytes.length = 9) : ∃ d, decodeMatch s = .ok d ∧
      ∀ f, readField d f = leNum bytes / 2 ^ (layout f).1 % 2 ^ (layout f).2 := by
  have hlt : ∀ b ∈ bytes, b < 256 := by
    rw [decodeText_eq] at hb
    split at hb
    · cases hb
    split at hb
    · cases hb
    injection hb with hb
    rw [← hb]
    exact sextetBytes_lt _ (sextets_lt s)
  refine ⟨bytesToMatch bytes, ?_, fun f => ?_⟩
  · unfold decodeMatch
    rw [hb]
    simp only [bind, Except.bind, hl, if_true, pure, Except.pure]
  · unfold readField bytesToMatch
    have e2 : f.start = (layout f).1 := by cases f <;> rfl
    have e1 : f.stop = (layout f).1 + (layout f).2 := by cases f <;> rfl
    have e3 : (layout f).1 + (layout f).2 ≤ 66 := by cases f <;> decide
    rw [e1, e2, List.take_take, Nat.min_eq_left e3, List.drop_take, Nat.add_sub_cancel_left,
      bitsVal_take, bitsVal_drop, bitsVal_bytes bytes hlt]

example : decodeText ['Q','Y','k','q','A','S','A','A','I','A','A','A'] =
    .ok [0x41, 0x89, 0x2a, 1, 0x20, 0, 0x20, 0, 0] := by decide

/-! ### C06 -/

/-- The assignments of `encode`, as a list. -/
def boardFields (b : Board) : List (MField × Nat) :=
  [(.cube, b.cube), (.owner, b.cubeOwner.toNat), (.onAction, b.onAction.toNat),
   (.crawford, if b.crawford then 1 else 0), (.gameState, b.gameState.toNat),
   (.inner, b.onInnerAction.toNat), (.doubled, if b.doubled then 1 else 0),
   (.resign, b.resignOffer.toNat), (.die1, b.rolled.1.toNat), (.die2, b.rolled.2.toNat),
   (.length, b.matchLength.toNat), (.score1, b.score.1.toNat), (.score2, b.score.2.toNat)]

theorem matchOf_eq (b : Board) :
    matchOf b = (boardFields b).foldl (fun d a => writeField d a.1 a.2) emptyBits := by
  unfold matchOf boardFields
  simp only [List.foldl_cons, List.foldl_nil]
  have e1 : (b.cube : Int).toNat = b.cube := rfl
  have e2 : ∀ c : Bool, (if c then (1 : Int) else 0).toNat = if c then 1 else 0 := by decide
  rw [e2, e2, e1]

theorem boardFields_fit (b : Board) (h : Fits b) : ∀ a ∈ boardFields b, a.2 < 2 ^ (layout a.1).2 := by
  have h1 := h.cube; have h2 := h.owner; have h3 := h.onAction; have h4 := h.gameState
  have h5 := h.inner; have h6 := h.resign; have h7 := h.die1; have h8 := h.die2
  have h9 := h.length; have h10 := h.score1; have h11 := h.score2
  have hc : ∀ c : Bool, (if c then 1 else 0) < 2 := by decide
  have hc1 := hc b.crawford
  have hc2 := hc b.doubled
  intro a ha
  simp only [boardFields, List.mem_cons, List.not_mem_nil, or_false] at ha
  rcases ha with rfl | rfl | rfl | rfl | rfl | rfl | rfl | rfl | rfl | rfl | rfl | rfl | rfl <;>
    simp only [layout, Nat.reducePow] <;> omega

theorem matchOf_read (b : Board) (h : Fits b) :
    (matchOf b).length = 66 ∧ ∀ f, readField (matchOf b) f = lastAssigned f 0 (boardFields b) := by
  rw [matchOf_eq]
  obtain ⟨h1, h2⟩ := foldl_write (boardFields b) (boardFields_fit b h) emptyBits (by decide)
  have he : ∀ f, readField emptyBits f = 0 := by intro f; cases f <;> decide
  refine ⟨h1, fun f => ?_⟩
  rw [h2 f, he]

theorem setMatch_matchOf (b b0 : Board) (h : Fits b) :
    setMatch b0 (matchOf b) = { b with position := b0.position } := by
  obtain ⟨_, hr⟩ := matchOf_read b h
  have h2 := h.owner; have h3 := h.onAction; have h4 := h.gameState
  have h5 := h.inner; have h6 := h.resign; have h7 := h.die1; have h8 := h.die2
  have h9 := h.length; have h10 := h.score1; have h11 := h.score2
  have hc : ∀ c : Bool, ((if c then 1 else 0 : Nat) != 0) = c := by decide
  obtain ⟨pos, cube, owner, act, craw, gs, inner, dbl, res, ⟨d1, d2⟩, len, ⟨s1, s2⟩⟩ := b
  simp only at h2 h3 h4 h5 h6 h7 h8 h9 h10 h11
  unfold setMatch
  simp only [hr, lastAssigned, boardFields, reduceCtorEq, if_true, if_false, hc]
  simp only [Board.mk.injEq, true_and, Prod.mk.injEq]
  omega

/-- **C06** (what holds) A board whose fields fit, and that is not a running money game with points on
the score, is restored exactly by encoding to (position ID, match ID) and decoding into any editor,
whoever is on action. -/
theorem C06_roundtrip_partial (b b0 : Board) (h : Fits b)
    (hm : ¬ (b.gameState = ON_GOING ∧ b.matchLength = 0 ∧ (0 < b.score.1 ∨ 0 < b.score.2))) :
    ∃ pid mid, gnubgEncode b = .ok (pid, mid) ∧ gnubgDecode b0 pid mid = ⟨b, none⟩ := by
  obtain ⟨hl, hr⟩ := matchOf_read b h
  have hact : (readField (matchOf b) .onAction : Int) = b.onAction := by
    have := h.onAction
    rw [hr]; simp only [lastAssigned, boardFields, reduceCtorEq, if_true, if_false]; omega
  have hdec := C04_bits (matchOf b) hl
  have hset := setMatch_matchOf b b0 h
  have hm' : ¬ (b.gameState = ON_GOING ∧ b.matchLength = 0 ∧
      (b.score.1 > b.matchLength ∨ b.score.2 > b.matchLength)) := by
    rintro ⟨x, y, z⟩; rw [y] at z; exact hm ⟨x, y, z⟩
  rcases h.onAction with h0 | h1
  · refine ⟨_, _, by rw [gnubgEncode, if_pos (by rw [hact, h0]; rfl)], ?_⟩
    unfold gnubgDecode
    have : readField (matchOf b) .onAction = 0 := by omega
    simp only [hdec, hset]
    rw [if_neg hm', C01_roundtrip _ _ h.row2 h.row1]
    simp only [this, if_true]
  · refine ⟨_, _, by rw [gnubgEncode, if_neg (by rw [hact, h1]; decide), if_pos (by rw [hact, h1]; rfl)], ?_⟩
    unfold gnubgDecode
    have : readField (matchOf b) .onAction = 1 := by omega
    simp only [hdec, hset]
    rw [if_neg hm', C01_roundtrip _ _ h.row1 h.row2]
    simp only [this, if_true]
    rfl

/-- A match position that fits: cube on 4 owned by him, him to act with 5-2, score 2-4 to 9. -/
def exMatchBoard : Board :=
  { position := ([6,3,3,0,0,0,0,0,0,0,0,0,0,0,0,0,0,0,0,0,0,0,0,2,1],
      [0,3,2,2,2,3,0,0,1,0,0,0,0,0,0,0,0,1,0,0,1,0,0,0,0]),
    cube := 2, cubeOwner := 1, onAction := 1, gameState := 1, onInnerAction := 1,
    rolled := (5, 2), matchLength := 9, score := (2, 4) }

theorem exMatchBoard_fits : Fits exMatchBoard :=
  ⟨row_of_mem (by decide) (by decide), row_of_mem (by decide) (by decide), by decide, by decide, by decide,
    by decide, by decide, by decide, by decide, by decide, by decide, by decide, by decide⟩

example : ¬ (exMatchBoard.gameState = ON_GOING ∧ exMatchBoard.matchLength = 0 ∧
    (0 < exMatchBoard.score.1 ∨ 0 < exMatchBoard.score.2)) := by decide

/-- **C06** is false as stated: in a running money game with points on the score the IDs are produced,
but decoding them raises `InconsistentData`, always. -/
theorem C06_money_false (b b0 : Board) (h : Fits b) (h1 : b.gameState = ON_GOING)
    (h2 : b.matchLength = 0) (h3 : 0 < b.score.1 ∨ 0 < b.score.2) :
    ∃ pid mid, gnubgEncode b = .ok (pid, mid) ∧
      (gnubgDecode b0 pid mid).err = some .inconsistentData := by
  obtain ⟨hl, hr⟩ := matchOf_read b h
  have hact : (readField (matchOf b) .onAction : Int) = b.onAction := by
    have := h.onAction
    rw [hr]; simp only [lastAssigned, boardFields, reduceCtorEq, if_true, if_false]; omega
  have hd : ∀ pid, (gnubgDecode b0 pid (encodeMatch (matchOf b))).err = some .inconsistentData := by
    intro pid
    unfold gnubgDecode
    simp only [C04_bits (matchOf b) hl, setMatch_matchOf b b0 h]
    rw [if_pos ⟨h1, h2, by rw [h2]; exact h3⟩]
  rcases h.onAction with h0 | h0
  · exact ⟨_, _, by rw [gnubgEncode, if_pos (by rw [hact, h0]; rfl)], hd _⟩
  · exact ⟨_, _, by rw [gnubgEncode, if_neg (by rw [hact, h0]; decide), if_pos (by rw [hact, h0]; rfl)], hd _⟩

/-- A board that meets the hypotheses of `C06_money_false`. -/
example : Fits { exMatchBoard with matchLength := 0 } :=
  ⟨row_of_mem (by decide) (by decide), row_of_mem (by decide) (by decide), by decide, by decide, by decide,
    by decide, by decide, by decide, by decide, by decide, by decide, by decide, by decide⟩

end Bglib
