import Verif.Model.Base64
/-
Helper lemmas about base64.
-/
namespace Bglib

theorem b64Val_b64Char : ∀ v, v < 64 → b64Val (b64Char v) = some v := by decide

theorem b64Char_ne_pad : ∀ v, v < 64 → b64Char v ≠ '=' := by decide

/-- Encoding without the padding. -/
def b64raw : List Nat → Text
  | [] => []
  | [a] => [b64Char (a / 4), b64Char (a % 4 * 16)]
  | [a, b] => [b64Char (a / 4), b64Char (a % 4 * 16 + b / 16), b64Char (b % 16 * 4)]
  | a :: b :: c :: rest =>
    b64Char (a / 4) :: b64Char (a % 4 * 16 + b / 16) :: b64Char (b % 16 * 4 + c / 64) ::
      b64Char (c % 64) :: b64raw rest

theorem b64raw_no_pad (bs : List Nat) (h : ∀ b ∈ bs, b < 256) : '=' ∉ b64raw bs := by
  fun_induction b64raw bs with
  | case1 => simp
  | case2 a =>
    simp at h
    simp [Ne.symm (b64Char_ne_pad (a / 4) (by omega)), Ne.symm (b64Char_ne_pad (a % 4 * 16) (by omega))]
  | case3 a b =>
    simp at h
    simp [Ne.symm (b64Char_ne_pad (a / 4) (by omega)),
      Ne.symm (b64Char_ne_pad (a % 4 * 16 + b / 16) (by omega)),
      Ne.symm (b64Char_ne_pad (b % 16 * 4) (by omega))]
  | case4 a b c rest ih =>
    simp at h
    simp [Ne.symm (b64Char_ne_pad (a / 4) (by omega)),
      Ne.symm (b64Char_ne_pad (a % 4 * 16 + b / 16) (by omega)),
      Ne.symm (b64Char_ne_pad (b % 16 * 4 + c / 64) (by omega)),
      Ne.symm (b64Char_ne_pad (c % 64) (by omega)), ih h.2.2.2]

theorem b64encode_eq (bs : List Nat) :
    ∃ p : Nat, b64encode bs = b64raw bs ++ List.replicate p '=' := by
  fun_induction b64encode bs with
  | case1 => exact ⟨0, rfl⟩
  | case2 a => exact ⟨2, rfl⟩
  | case3 a b => exact ⟨1, rfl⟩
  | case4 a b c rest ih =>
    obtain ⟨p, hp⟩ := ih
    exact ⟨p, by simp [b64raw, hp]⟩

theorem rstripPad_append (s : Text) (p : Nat) (h : '=' ∉ s) :
    rstripPad (s ++ List.replicate p '=') = s := by
  unfold rstripPad
  have hd : ∀ (p : Nat) (l : Text), (List.replicate p '=' ++ l).dropWhile (· = '=') =
      l.dropWhile (· = '=') := by
    intro p l
    induction p with
    | zero => rfl
    | succ p ih => simpa [List.replicate_succ] using ih
  rw [List.reverse_append, List.reverse_replicate, hd]
  have : s.reverse.dropWhile (· = '=') = s.reverse := by
    cases hr : s.reverse with
    | nil => rfl
    | cons c cs =>
      have : c ∈ s := by rw [← List.mem_reverse, hr]; simp
      have hc : c ≠ '=' := fun e => h (e ▸ this)
      simp [hc]
  rw [this, List.reverse_reverse]

theorem rstrip_encode (bs : List Nat) (h : ∀ b ∈ bs, b < 256) :
    rstripPad (b64encode bs) = b64raw bs := by
  obtain ⟨p, hp⟩ := b64encode_eq bs
  rw [hp, rstripPad_append _ _ (b64raw_no_pad bs h)]

/-- Number of characters. -/
theorem b64raw_length (bs : List Nat) : (b64raw bs).length = (bs.length * 8 + 5) / 6 := by
  fun_induction b64raw bs with
  | case1 => rfl
  | case2 => simp
  | case3 => simp
  | case4 a b c rest ih => simp only [List.length_cons, ih]; omega

/-! ### Decoding any text without pad characters -/

/-- Sextets of a text. -/
def sextets (s : Text) : List Nat := s.filterMap b64Val

theorem b64Val_lt (c : Char) (v : Nat) (h : b64Val c = some v) : v < 64 := by
  unfold b64Val at h
  have e1 : ('Z' : Char).toNat = 90 := rfl
  have e2 : ('z' : Char).toNat = 122 := rfl
  have e3 : ('9' : Char).toNat = 57 := rfl
  split at h
  · rename_i hh
    have : c.toNat ≤ 90 := hh.2
    injection h with h; omega
  split at h
  · rename_i hh
    have : c.toNat ≤ 122 := hh.2
    injection h with h; omega
  split at h
  · rename_i hh
    have : c.toNat ≤ 57 := hh.2
    injection h with h; omega
  split at h
  · injection h with h; omega
  split at h
  · injection h with h; omega
  · cases h

theorem b64Val_pad : b64Val '=' = none := by decide

/-- Bytes of a list of sextets, groups of four, an incomplete group losing its last bits. -/
def sextetBytes : List Nat → List Nat
  | a :: b :: c :: d :: rest =>
    (a * 4 + b / 16) :: (b % 16 * 16 + c / 4) :: (c % 4 * 64 + d) :: sextetBytes rest
  | [a, b, c] => [a * 4 + b / 16, b % 16 * 16 + c / 4]
  | [a, b] => [a * 4 + b / 16]
  | _ => []

/-- The padding that completes a text with `k` sextets. -/
def padOk (k m : Nat) : Bool := k % 4 == 0 || (k % 4 == 2 && 2 ≤ m) || (k % 4 == 3 && 1 ≤ m)

/-- The loop over sextets only. -/
def a2s (m q lb lc : Nat) : List Nat → Option (List Nat)
  | [] => if lb = 0 ∨ (q = 2 ∧ 2 ≤ m) ∨ (q = 3 ∧ 1 ≤ m) then some [] else none
  | v :: vs =>
    if 8 ≤ lb + 6 then
      (a2s m ((q + 1) % 4) (lb + 6 - 8) ((lc * 64 + v) % 2 ^ (lb + 6 - 8)) vs).map
        (((lc * 64 + v) / 2 ^ (lb + 6 - 8)) :: ·)
    else a2s m ((q + 1) % 4) (lb + 6) (lc * 64 + v) vs

theorem a2b_pads (q lb lc m : Nat) (hq : q < 4) (h : q = 0 → lb = 0) :
    a2b q lb lc (List.replicate m '=') =
      if lb = 0 ∨ (q = 2 ∧ 2 ≤ m) ∨ (q = 3 ∧ 1 ≤ m) then some [] else none := by
  induction m with
  | zero => simp [a2b]
  | succ m ih =>
    rw [List.replicate_succ, a2b, if_pos rfl]
    have hf : findValid (List.replicate m '=') = if m = 0 then none else some '=' := by
      cases m <;> simp [findValid, List.replicate_succ]
    rw [hf, ih]
    by_cases hm : m = 0
    · subst hm; simp; grind
    · simp [hm]; grind

theorem a2b_text (s : Text) (hs : '=' ∉ s) (m : Nat) : ∀ (q lb lc : Nat), q < 4 → (q = 0 → lb = 0) →
    (q = 1 → lb = 6) → (q = 2 → lb = 4) → (q = 3 → lb = 2) →
    a2b q lb lc (s ++ List.replicate m '=') = a2s m q lb lc (sextets s) := by
  induction s with
  | nil => intro q lb lc hq h0 _ _ _; simpa [sextets, a2s] using a2b_pads q lb lc m hq h0
  | cons c cs ih =>
    intro q lb lc hq h0 h1 h2 h3
    have hc : c ≠ '=' := by intro e; simp [e] at hs
    have hcs : '=' ∉ cs := by intro e; exact hs (List.mem_cons_of_mem _ e)
    rw [List.cons_append, a2b, if_neg hc]
    cases hv : b64Val c with
    | none => simpa [sextets, hv] using ih hcs q lb lc hq h0 h1 h2 h3
    | some v =>
      simp only [sextets, List.filterMap_cons, hv, a2s]
      split
      · rw [ih hcs _ _ _ (by omega) (by omega) (by omega) (by omega) (by omega)]; rfl
      · rw [ih hcs _ _ _ (by omega) (by omega) (by omega) (by omega) (by omega)]; rfl

theorem a2s_eq (m : Nat) (vs : List Nat) (h : ∀ v ∈ vs, v < 64) :
    a2s m 0 0 0 vs = if padOk vs.length m then some (sextetBytes vs) else none := by
  fun_induction sextetBytes vs with
  | case1 a b c d rest ih =>
    simp at h
    have hp : padOk (a :: b :: c :: d :: rest).length m = padOk rest.length m := by
      unfold padOk; simp only [List.length_cons, Nat.add_mod_right, Nat.add_assoc, Nat.reduceAdd]
    rw [hp]
    rw [a2s, if_neg (by omega), a2s, if_pos (by omega), a2s, if_pos (by omega), a2s, if_pos (by omega)]
    simp only [Nat.reducePow, Nat.reduceAdd, Nat.reduceMod, Nat.reduceSub]
    have h1 : ((0 * 64 + a) * 64 + b) / 16 = a * 4 + b / 16 := by omega
    have h3 : ((0 * 64 + a) * 64 + b) % 16 = b % 16 := by omega
    have h5 : (b % 16 * 64 + c) / 4 = b % 16 * 16 + c / 4 := by omega
    have h6 : (b % 16 * 64 + c) % 4 = c % 4 := by omega
    simp only [h1, h3, h5, h6, Nat.div_one, Nat.mod_one]
    rw [ih h.2.2.2.2]
    split <;> rfl
  | case2 a b c =>
    simp at h
    rw [a2s, if_neg (by omega), a2s, if_pos (by omega), a2s, if_pos (by omega), a2s]
    simp only [Nat.reducePow, Nat.reduceAdd, Nat.reduceMod, Nat.reduceSub]
    have h1 : ((0 * 64 + a) * 64 + b) / 16 = a * 4 + b / 16 := by omega
    have h3 : ((0 * 64 + a) * 64 + b) % 16 = b % 16 := by omega
    have h5 : (b % 16 * 64 + c) / 4 = b % 16 * 16 + c / 4 := by omega
    simp only [h1, h3, h5]
    by_cases hm : 1 ≤ m <;> simp [padOk, hm]
  | case3 a b =>
    simp at h
    rw [a2s, if_neg (by omega), a2s, if_pos (by omega), a2s]
    simp only [Nat.reducePow, Nat.reduceAdd, Nat.reduceMod, Nat.reduceSub]
    have h1 : ((0 * 64 + a) * 64 + b) / 16 = a * 4 + b / 16 := by omega
    simp only [h1]
    by_cases hm : 2 ≤ m <;> simp [padOk, hm]
  | case4 vs h1 h2 h3 =>
    match vs, h1, h2, h3 with
    | [], _, _, _ => simp [a2s, padOk]
    | [a], _, _, _ => simp [a2s, padOk]
    | [a, b], _, _, h3 => exact absurd rfl (h3 a b)
    | [a, b, c], _, h2, _ => exact absurd rfl (h2 a b c)
    | a :: b :: c :: d :: r, h1, _, _ => exact absurd rfl (h1 a b c d r)

theorem sextets_lt (s : Text) : ∀ v ∈ sextets s, v < 64 := by
  intro v hv
  simp only [sextets, List.mem_filterMap] at hv
  obtain ⟨c, _, hc⟩ := hv
  exact b64Val_lt c v hc

theorem b64decode_padded (s : Text) (hs : '=' ∉ s) (m : Nat) :
    b64decode (s ++ List.replicate m '=') =
      if padOk (sextets s).length m then some (sextetBytes (sextets s)) else none := by
  unfold b64decode
  rw [a2b_text s hs m 0 0 0 (by omega) (by omega) (by omega) (by omega) (by omega),
    a2s_eq m _ (sextets_lt s)]

theorem padLoop_eq (s : Text) (hs : '=' ∉ s) (n : Nat) : ∀ m,
    padLoop n (s ++ List.replicate m '=') =
      if (sextets s).length % 4 ≠ 1 ∧ ∃ j, j < n ∧ padOk (sextets s).length (m + j)
      then some (sextetBytes (sextets s)) else none := by
  induction n with
  | zero => intro m; simp [padLoop]
  | succ n ih =>
    intro m
    rw [padLoop, b64decode_padded s hs]
    by_cases hp : padOk (sextets s).length m
    · have h4 : (sextets s).length % 4 ≠ 1 := by
        intro h; simp [padOk, h] at hp
      rw [if_pos hp, if_pos ⟨h4, 0, by omega, hp⟩]
    · rw [if_neg hp]
      have : s ++ List.replicate m '=' ++ ['='] = s ++ List.replicate (m + 1) '=' := by
        rw [List.append_assoc, ← List.replicate_succ']
      simp only [this, ih (m + 1)]
      congr 1
      apply propext
      constructor
      · rintro ⟨h, j, hj, hh⟩
        exact ⟨h, j + 1, by omega, by rw [show m + (j + 1) = m + 1 + j by omega]; exact hh⟩
      · rintro ⟨h, j, hj, hh⟩
        cases j with
        | zero => exact absurd hh hp
        | succ j => exact ⟨h, j, by omega, by rw [show m + 1 + j = m + (j + 1) by omega]; exact hh⟩

/-- The outcome of the padding loop for every text. -/
theorem decodeText_eq (s : Text) : decodeText s =
    if '=' ∈ s then .error .typeError
    else if (sextets s).length % 4 = 1 then .error .diverges
    else .ok (sextetBytes (sextets s)) := by
  unfold decodeText
  split
  · rfl
  · rename_i hs
    have := padLoop_eq s hs 3 0
    simp only [List.replicate_zero, List.append_nil] at this
    rw [this]
    by_cases h : (sextets s).length % 4 = 1
    · simp [h]
    · rw [if_pos ⟨h, 2, by omega, by unfold padOk; simp; omega⟩, if_neg h]

/-- If three rounds fail, any number fails: the Python loop does not terminate. -/
theorem padLoop_none (s : Text) (hs : '=' ∉ s) (h : padLoop 3 s = none) (n : Nat) :
    padLoop n s = none := by
  have h3 := padLoop_eq s hs 3 0
  have hn := padLoop_eq s hs n 0
  simp only [List.replicate_zero, List.append_nil] at h3 hn
  rw [hn, if_neg]
  rintro ⟨h4, j, hj, hp⟩
  rw [h3, if_pos ⟨h4, 2, by omega, by unfold padOk; simp; omega⟩] at h
  cases h

theorem sextets_raw (bs : List Nat) (h : ∀ b ∈ bs, b < 256) :
    (sextets (b64raw bs)).length % 4 ≠ 1 ∧ sextetBytes (sextets (b64raw bs)) = bs := by
  fun_induction b64raw bs with
  | case1 => exact ⟨by decide, rfl⟩
  | case2 a =>
    simp at h
    simp only [sextets, List.filterMap_cons, b64Val_b64Char (a / 4) (by omega),
      b64Val_b64Char (a % 4 * 16) (by omega), List.filterMap_nil, sextetBytes, List.length_cons,
      List.length_nil]
    refine ⟨by omega, ?_⟩
    congr 1; omega
  | case3 a b =>
    simp at h
    simp only [sextets, List.filterMap_cons, b64Val_b64Char (a / 4) (by omega),
      b64Val_b64Char (a % 4 * 16 + b / 16) (by omega), b64Val_b64Char (b % 16 * 4) (by omega),
      List.filterMap_nil, sextetBytes, List.length_cons, List.length_nil]
    refine ⟨by omega, ?_⟩
    congr 1
    · omega
    · congr 1; omega
  | case4 a b c rest ih =>
    simp at h
    have ih := ih h.2.2.2
    unfold sextets at ih
    simp only [sextets, List.filterMap_cons, b64Val_b64Char (a / 4) (by omega),
      b64Val_b64Char (a % 4 * 16 + b / 16) (by omega), b64Val_b64Char (b % 16 * 4 + c / 64) (by omega),
      b64Val_b64Char (c % 64) (by omega), sextetBytes, List.length_cons]
    refine ⟨by omega, ?_⟩
    rw [ih.2]
    congr 1
    · omega
    · congr 1
      · omega
      · congr 1; omega

/-- Decoding the stripped encoding gives the bytes back. -/
theorem decodeText_encode (bs : List Nat) (h : ∀ b ∈ bs, b < 256) :
    decodeText (rstripPad (b64encode bs)) = .ok bs := by
  rw [rstrip_encode bs h, decodeText_eq, if_neg (b64raw_no_pad bs h), if_neg (sextets_raw bs h).1,
    (sextets_raw bs h).2]

theorem sextetBytes_lt (vs : List Nat) (h : ∀ v ∈ vs, v < 64) : ∀ b ∈ sextetBytes vs, b < 256 := by
  fun_induction sextetBytes vs with
  | case1 a b c d rest ih =>
    simp at h ⊢
    exact ⟨by omega, by omega, by omega, ih h.2.2.2.2⟩
  | case2 a b c => simp at h ⊢; omega
  | case3 a b => simp at h ⊢; omega
  | case4 => simp

theorem sextetBytes_length (vs : List Nat) : (sextetBytes vs).length = vs.length * 6 / 8 := by
  fun_induction sextetBytes vs with
  | case1 a b c d rest ih => simp only [List.length_cons, ih]; omega
  | case2 a b c => simp
  | case3 a b => simp
  | case4 vs h1 h2 h3 =>
    match vs, h1, h2, h3 with
    | [], _, _, _ => rfl
    | [a], _, _, _ => simp
    | [a, b], _, _, h3 => exact absurd rfl (h3 a b)
    | [a, b, c], _, h2, _ => exact absurd rfl (h2 a b c)
    | a :: b :: c :: d :: r, h1, _, _ => exact absurd rfl (h1 a b c d r)

end Bglib
