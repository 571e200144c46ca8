import Verif.Lemmas.Bearoff
namespace Bglib
open Spec

theorem rankHash_lt (xs : List Bool) : rankHash xs (xs.count true) < xs.length.choose (xs.count true) := by
  induction xs with
  | nil => simp [rankHash]
  | cons x xs ih =>
    cases x with
    | true =>
      simp only [rankHash, List.count_cons_self, List.length_cons, Nat.choose_succ_succ', Nat.add_sub_cancel]
      omega
    | false =>
      simp only [rankHash, List.length_cons]
      rw [List.count_cons_of_ne (by simp)]
      cases hc : xs.count true with
      | zero => rw [hc] at ih; simp at ih ⊢; exact ih
      | succ c => rw [hc] at ih; rw [Nat.choose_succ_succ']; omega

theorem rankHash_inj (xs ys : List Bool) (hl : xs.length = ys.length) (hc : xs.count true = ys.count true)
    (h : rankHash xs (xs.count true) = rankHash ys (ys.count true)) : xs = ys := by
  induction xs generalizing ys with
  | nil => cases ys with
    | nil => rfl
    | cons => simp at hl
  | cons x xs ih =>
    cases ys with
    | nil => simp at hl
    | cons y ys =>
      simp only [List.length_cons, Nat.add_right_cancel_iff] at hl
      cases x <;> cases y
      · rw [List.count_cons_of_ne (by simp), List.count_cons_of_ne (by simp)] at hc h
        simp only [rankHash] at h
        rw [ih ys hl hc h]
      · exfalso
        rw [List.count_cons_of_ne (by simp), List.count_cons_self] at hc h
        have := rankHash_lt xs
        simp only [rankHash, ← hl, ← hc] at h
        omega
      · exfalso
        rw [List.count_cons_self, List.count_cons_of_ne (by simp)] at hc h
        have := rankHash_lt ys
        simp only [rankHash, hl, hc] at h
        omega
      · simp only [List.count_cons_self, Nat.add_right_cancel_iff] at hc
        simp only [List.count_cons_self, rankHash, hl, hc, Nat.add_sub_cancel] at h
        rw [ih ys hl hc (by rw [hc]; omega)]

theorem rankUnhash_spec (n c k : Nat) (h : k < n.choose c) :
    (rankUnhash k n c).length = n ∧ (rankUnhash k n c).count true = c ∧
    rankHash (rankUnhash k n c) c = k := by
  induction n generalizing c k with
  | zero =>
    cases c with
    | zero => simp at h; simp [rankUnhash, rankHash, h]
    | succ c => simp at h
  | succ n ih =>
    cases c with
    | zero =>
      obtain ⟨h1, h2, h3⟩ := ih 0 k (by simpa using h)
      simp [rankUnhash, rankHash, h1, h2, h3]
    | succ c =>
      rw [Nat.choose_succ_succ'] at h
      rw [rankUnhash]
      split
      · next hk =>
        obtain ⟨h1, h2, h3⟩ := ih c (k - n.choose (c + 1)) (by omega)
        simp only [List.length_cons, h1, List.count_cons_self, h2, rankHash, Nat.add_sub_cancel, h3, true_and]
        omega
      · next hk =>
        obtain ⟨h1, h2, h3⟩ := ih (c + 1) k (by omega)
        refine ⟨by simp [h1], ?_, by simp [rankHash, h3]⟩
        rw [List.count_cons_of_ne (by simp), h2]

theorem rankPair_ok : rankPair.Ok where
  range := by rintro xs c rfl; exact rankHash_lt xs
  inj := by rintro xs ys c hl rfl h2 h; exact rankHash_inj xs ys hl h2.symm (by rw [h2]; exact h)
  inverse := fun k n c h => rankUnhash_spec n c k h
  leading := fun _ _ => rfl

/-- Groups of ones separated by zeros. -/
def sepOnes : List Nat → List Bool
  | [] => []
  | [y] => List.replicate y true
  | y :: z :: ys => List.replicate y true ++ false :: sepOnes (z :: ys)

theorem sepOnes_append (ys : List Nat) (x : Nat) (h : ys ≠ []) :
    sepOnes (ys ++ [x]) = sepOnes ys ++ false :: List.replicate x true := by
  induction ys with
  | nil => exact absurd rfl h
  | cons y ys ih =>
    cases ys with
    | nil => simp [sepOnes]
    | cons z zs =>
      have := ih (by simp)
      simp only [List.cons_append, sepOnes] at this ⊢
      rw [this]; simp

theorem unary_reverse (t : List Nat) (h : t ≠ []) : (unary t).reverse = false :: sepOnes t.reverse := by
  induction t with
  | nil => exact absurd rfl h
  | cons x xs ih =>
    cases xs with
    | nil => simp [unary, sepOnes]
    | cons y ys =>
      have := ih (by simp)
      rw [unary, List.reverse_append, List.reverse_cons, this]
      rw [List.reverse_cons (as := y :: ys), sepOnes_append _ _ (by simp)]
      simp

theorem unary_count (t : List Nat) : (unary t).count true = t.sum ∧ (unary t).length = t.sum + t.length := by
  induction t with
  | nil => simp [unary]
  | cons x xs ih => simp [unary, ih.1, ih.2]; omega

theorem unary_inj (t u : List Nat) (hl : t.length = u.length) (h : unary t = unary u) : t = u := by
  induction t generalizing u with
  | nil => cases u with
    | nil => rfl
    | cons => simp at hl
  | cons x xs ih =>
    cases u with
    | nil => simp at hl
    | cons y ys =>
      simp only [List.length_cons, Nat.add_right_cancel_iff] at hl
      have key : ∀ (a b : Nat) (l m : List Bool),
          List.replicate a true ++ false :: l = List.replicate b true ++ false :: m → a = b ∧ l = m := by
        intro a
        induction a with
        | zero => intro b l m h; cases b with
          | zero => simpa using h
          | succ b => simp [List.replicate_succ] at h
        | succ a iha => intro b l m h; cases b with
          | zero => simp [List.replicate_succ] at h
          | succ b =>
            simp only [List.replicate_succ, List.cons_append, List.cons.injEq, true_and] at h
            obtain ⟨h1, h2⟩ := iha b l m h
            exact ⟨by omega, h2⟩
      obtain ⟨h1, h2⟩ := key x y _ _ h
      rw [h1, ih ys hl h2]

theorem unary_surj (bs : List Bool) :
    ∃ t : List Nat, unary t = bs ++ [false] ∧ t.length = bs.count false + 1 := by
  induction bs with
  | nil => exact ⟨[0], by simp [unary]⟩
  | cons b bs ih =>
    obtain ⟨t, h1, h2⟩ := ih
    cases b with
    | false => exact ⟨0 :: t, by simp [unary, h1], by simp [h2]⟩
    | true =>
      cases t with
      | nil => simp at h2
      | cons x xs =>
        refine ⟨(x + 1) :: xs, ?_, by simpa using h2⟩
        simp only [unary] at h1 ⊢
        rw [List.replicate_succ, List.cons_append, h1]; rfl

theorem sigmaD_step (c : Nat) : sigmaD (c + 1) = sigmaD c + (5 + c).choose c := by
  cases c with
  | zero => simp [sigmaD]
  | succ c => rw [sigmaD, triceD, show 6 + (c + 1) - 1 = 5 + (c + 1) by omega]

theorem sigmaD_eq (c : Nat) : sigmaD c = (c + 5).choose 6 := by
  induction c with
  | zero => rfl
  | succ c ih =>
    rw [sigmaD_step, ih, show c + 1 + 5 = (c + 5) + 1 by omega, Nat.choose_succ_succ' (c + 5) 5,
      show (5 + c).choose c = (c + 5).choose 5 by
        rw [Nat.add_comm 5 c]; exact Nat.choose_symm_of_eq_add rfl]
    exact Nat.add_comm _ _

theorem sigmaD_mono {a b : Nat} (h : a ≤ b) : sigmaD a ≤ sigmaD b := by
  rw [sigmaD_eq, sigmaD_eq]; exact Nat.choose_le_choose _ (by omega)

theorem noriT2k_eq (H : HashPair) (hH : H.Ok) (t : List Nat) (h : OnPoints t 6 15) :
    noriT2k H t = .ok (sigmaD t.sum + H.hash (sepOnes t.reverse) t.sum) ∧
    (sepOnes t.reverse).count true = t.sum ∧ (sepOnes t.reverse).length = 5 + t.sum := by
  obtain ⟨hl, hs⟩ := h
  have hne : t ≠ [] := by rintro rfl; simp at hl
  have hu := unary_reverse t hne
  have hc := unary_count t
  refine ⟨?_, ?_, ?_⟩
  · unfold noriT2k
    have hg : sigmaGet ((t.sum : Int) - 1) = .ok (sigmaD t.sum) := by
      unfold sigmaGet
      rw [if_pos (by omega)]
      congr 2; omega
    rw [if_neg (by simp [hl]), countChequers_eq]
    simp only [hg, hu, hH.leading, bind, Except.bind, pure, Except.pure]
  · have := hc.1
    rw [← List.count_reverse, hu, List.count_cons_of_ne (by simp)] at this
    exact this
  · have := hc.2
    rw [← List.length_reverse, hu, List.length_cons] at this
    omega

theorem noriT2k_bounds (H : HashPair) (hH : H.Ok) (t : List Nat) (h : OnPoints t 6 15) :
    ∃ k, noriT2k H t = .ok k ∧ sigmaD t.sum ≤ k ∧ k < sigmaD (t.sum + 1) := by
  obtain ⟨h1, h2, h3⟩ := noriT2k_eq H hH t h
  refine ⟨_, h1, by omega, ?_⟩
  have := hH.range _ _ h2
  rw [h3] at this
  rw [sigmaD_step]; omega

theorem fillPoints_sep (ys pre : List Nat) (h : ys ≠ []) :
    fillPoints (pre ++ List.replicate ys.length 0) pre.length (sepOnes ys) = .ok (pre ++ ys) := by
  have ones : ∀ (y a : Nat) (pre rest : List Nat) (bs : List Bool),
      fillPoints (pre ++ a :: rest) pre.length (List.replicate y true ++ bs) =
      fillPoints (pre ++ (a + y) :: rest) pre.length bs := by
    intro y
    induction y with
    | zero => intros; rfl
    | succ y ih =>
      intro a pre rest bs
      rw [List.replicate_succ, List.cons_append, fillPoints]
      simp only [List.getElem?_append_right (Nat.le_refl _), Nat.sub_self, List.getElem?_cons_zero]
      rw [List.set_append_right _ _ (Nat.le_refl _), Nat.sub_self, List.set_cons_zero, ih]
      rw [show a + 1 + y = a + (y + 1) by omega]
  induction ys generalizing pre with
  | nil => exact absurd rfl h
  | cons y ys ih =>
    cases ys with
    | nil =>
      have := ones y 0 pre [] []
      simp only [List.append_nil, Nat.zero_add] at this
      simp only [sepOnes, List.length_cons, List.length_nil, List.replicate_succ, List.replicate_zero]
      rw [this, fillPoints]
    | cons z zs =>
      simp only [sepOnes, List.length_cons, List.replicate_succ] at ih ⊢
      rw [ones, fillPoints, Nat.zero_add]
      have := ih (pre ++ [y]) (by simp)
      simp only [List.length_append, List.length_cons, List.length_nil, List.append_assoc,
        List.cons_append, List.nil_append] at this
      exact this

theorem noriK2tLoop_eq (H : HashPair) (n c : Nat) (h1 : sigmaD c ≤ n) (h2 : n < sigmaD (c + 1)) (m a : Nat)
    (ha : a ≤ c) (hc : c < a + m) :
    noriK2tLoop H n (List.range' a m) = (do
      let xs ← fillPoints [0, 0, 0, 0, 0, 0] 0 (H.rhash (n - sigmaD c) (5 + c) c)
      return xs.reverse) := by
  induction m generalizing a with
  | zero => omega
  | succ m ih =>
    rw [List.range'_succ, noriK2tLoop]
    by_cases hac : a = c
    · subst hac
      rw [if_pos h2, show 6 + a - 1 = 5 + a by omega]
    · have := sigmaD_mono (show a + 1 ≤ c by omega)
      rw [if_neg (by omega)]
      exact ih (a + 1) (by omega) (by omega)

theorem noriK2tLoop_high (H : HashPair) (n m a : Nat) (h : sigmaD (a + m) ≤ n) :
    noriK2tLoop H n (List.range' a m) = .error .assertion := by
  induction m generalizing a with
  | zero => rfl
  | succ m ih =>
    rw [List.range'_succ, noriK2tLoop]
    have := sigmaD_mono (show a + 1 ≤ a + (m + 1) by omega)
    rw [if_neg (by omega)]
    exact ih (a + 1) (by rw [show a + 1 + m = a + (m + 1) by omega]; exact h)

theorem sigma_find (k : Nat) : ∀ m, k < sigmaD m → ∃ c, c < m ∧ sigmaD c ≤ k ∧ k < sigmaD (c + 1) := by
  intro m
  induction m with
  | zero => intro h; simp [sigmaD] at h
  | succ m ih =>
    intro h
    by_cases hk : k < sigmaD m
    · obtain ⟨c, h1, h2⟩ := ih hk
      exact ⟨c, by omega, h2⟩
    · exact ⟨m, by omega, by omega, h⟩

theorem interleave_inj : ∀ us them us' them' : List Nat, us.length = them.length →
    us'.length = them'.length → us.length = us'.length →
    ((us.zip them).flatMap fun p => [p.1, p.2]) = ((us'.zip them').flatMap fun p => [p.1, p.2]) →
    us = us' ∧ them = them'
  | [], [], [], [] => by simp
  | a :: us, b :: them, c :: us', d :: them' => by
    intro h1 h2 h3 h4
    simp only [List.zip_cons_cons, List.flatMap_cons, List.cons_append, List.nil_append, List.cons.injEq] at h4
    have := interleave_inj us them us' them' (by simpa using h1) (by simpa using h2) (by simpa using h3) h4.2.2
    simp [h4.1, h4.2.1, this.1, this.2]
  | [], [], [], _ :: _ => by simp
  | [], [], _ :: _, _ => by simp
  | _ :: _, _ :: _, [], _ => by simp
  | _ :: _, _ :: _, _ :: _, [] => by simp
  | [], _ :: _, _, _ => by simp
  | _ :: _, [], _, _ => by simp

theorem interleave_sum : ∀ us them : List Nat, us.length = them.length →
    ((us.zip them).flatMap fun p => [p.1, p.2]).sum = us.sum + them.sum ∧
    ((us.zip them).flatMap fun p => [p.1, p.2]).length = 2 * us.length
  | [], [] => by simp
  | a :: us, b :: them => by
    intro h
    have := interleave_sum us them (by simpa using h)
    simp only [List.zip_cons_cons, List.flatMap_cons, List.cons_append, List.nil_append, List.sum_cons,
      List.length_cons]
    omega
  | [], _ :: _ => by simp
  | _ :: _, [] => by simp

end Bglib
