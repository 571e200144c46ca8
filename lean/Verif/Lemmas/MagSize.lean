import Verif.Lemmas.Mag
import Verif.Lemmas.Plain
import Verif.Props.Theme
import Verif.Spec.Mag
/-
The magnification of a picture, and what lies in it.
-/
namespace Bglib
open Spec Img

theorem size_mul {a d : Int} (ha : SizeOk a) (hd : SizeOk d) : 0 < a * d ∧ a * d * 4 < 2 ^ 53 := by
  obtain ⟨a0, a1⟩ := ha
  obtain ⟨d0, d1⟩ := hd
  refine ⟨Int.mul_pos a0 d0, ?_⟩
  have : a * d ≤ 2 ^ 25 * 2 ^ 25 := Int.mul_le_mul a1 d1 d0.le (by norm_num)
  calc a * d * 4 ≤ 2 ^ 25 * 2 ^ 25 * 4 := by omega
    _ < 2 ^ 53 := by norm_num

theorem setMag_eq {w h bw bh : Int} (hw : SizeOk w) (hh : SizeOk h) (hbw : SizeOk bw) (hbh : SizeOk bh) :
    setMag w h (bw, bh) = if SharpSize w h bw bh then .ok (fitting w h bw bh) else .error .assertion := by
  have q : ∀ {x : Int}, SizeOk x → (0 : ℚ) < x := fun hx => by exact_mod_cast hx.1
  have hx : (0 : ℚ) < fl (bw / w) := fl_gt (div_pos (q hbw) (q hw))
  have hy : (0 : ℚ) < fl (bh / h) := fl_gt (div_pos (q hbh) (q hh))
  have m1 := size_mul hbw hh
  have m2 := size_mul hbh hw
  unfold setMag
  dsimp only
  rw [if_neg (show ¬ (w = 0 ∨ h = 0) by have := hw.1; have := hh.1; omega),
    if_neg (show ¬ ¬ fl (bw / w) > 0 from fun h => h hx), if_neg (show ¬ ¬ fl (bh / h) > 0 from fun h => h hy)]
  rcases lt_trichotomy (bw * h) (bh * w) with hlt | heq | hgt
  · -- the width is tighter
    have hmin : ¬ fl ((bh : ℚ) / h) < fl (bw / w) := (fl_lt hbw.1 hw.1 hbh.1 hh.1 m1.2 hlt).le.not_gt
    have hroom := fl_room hbw.1 hw.1 hh.1 m1.2 hlt
    rw [if_neg hmin, if_neg (show ¬ ¬ fl (h * fl (bw / w)) ≤ bh from fun x => x hroom)]
    have hr : WidthRules w h bw bh := hlt.le
    have hn : ¬ WidthRules h w bh bw := by unfold WidthRules; omega
    have : SharpSize w h bw bh ↔ Sharp w bw := ⟨fun x => x.1 hr, fun x => ⟨fun _ => x, fun y => absurd y hn⟩⟩
    unfold fitting
    rw [if_pos hr]
    by_cases hs : Sharp w bw
    · rw [if_pos (this.2 hs), if_neg (show ¬ ¬ fl (w * fl (bw / w)) ≤ bw from fun x => x hs)]
    · rw [if_neg (fun x => hs (this.1 x)), if_pos (show ¬ fl (w * fl (bw / w)) ≤ bw from hs)]
  · -- both
    have hw0 : (w : ℚ) ≠ 0 := (q hw).ne'
    have hh0 : (h : ℚ) ≠ 0 := (q hh).ne'
    have e : (bw : ℚ) / w = bh / h := by
      rw [div_eq_div_iff hw0 hh0]; exact_mod_cast heq
    have hmin : ¬ fl ((bh : ℚ) / h) < fl (bw / w) := by rw [e]; exact lt_irrefl _
    have hr : WidthRules w h bw bh := heq.le
    have hn : WidthRules h w bh bw := heq.ge
    rw [if_neg hmin]
    unfold fitting
    rw [if_pos hr]
    by_cases h1 : Sharp w bw
    · rw [if_neg (show ¬ ¬ fl (w * fl (bw / w)) ≤ bw from fun x => x h1)]
      by_cases h2 : Sharp h bh
      · rw [if_neg (show ¬ ¬ fl (h * fl (bw / w)) ≤ bh from fun x => x (by rw [e]; exact h2)),
          if_pos (show SharpSize w h bw bh from ⟨fun _ => h1, fun _ => h2⟩)]
      · rw [if_pos (show ¬ fl (h * fl (bw / w)) ≤ bh by rw [e]; exact h2),
          if_neg (show ¬ SharpSize w h bw bh from fun x => h2 (x.2 hn))]
    · rw [if_pos (show ¬ fl (w * fl (bw / w)) ≤ bw from h1),
        if_neg (show ¬ SharpSize w h bw bh from fun x => h1 (x.1 hr))]
  · -- the height is tighter
    have hmin : fl ((bh : ℚ) / h) < fl (bw / w) := fl_lt hbh.1 hh.1 hbw.1 hw.1 m2.2 hgt
    have hroom := fl_room hbh.1 hh.1 hw.1 m2.2 hgt
    rw [if_pos hmin, if_neg (show ¬ ¬ fl (w * fl (bh / h)) ≤ bw from fun x => x hroom)]
    have hr : ¬ WidthRules w h bw bh := by unfold WidthRules; omega
    have hn : WidthRules h w bh bw := hgt.le
    have : SharpSize w h bw bh ↔ Sharp h bh := ⟨fun x => x.2 hn, fun x => ⟨fun y => absurd y hr, fun _ => x⟩⟩
    unfold fitting
    rw [if_neg hr]
    by_cases hs : Sharp h bh
    · rw [if_pos (this.2 hs), if_neg (show ¬ ¬ fl (h * fl (bh / h)) ≤ bh from fun x => x hs)]
    · rw [if_neg (fun x => hs (this.1 x)), if_pos (show ¬ fl (h * fl (bh / h)) ≤ bh from hs)]

/-- The style gives the board this size. -/
def sizeIs (rules : List Rule) (w h : Int) : Bool :=
  match applyRules [] ⟨.board, [], []⟩ rules with
  | .ok e => decide (attrInt t!"width" [e] = .ok w) && decide (attrInt t!"height" [e] = .ok h)
  | .error _ => false

theorem drawSized_eq {rules : List Rule} {w h : Int} (hsz : sizeIs rules w h = true) (hr : themeReady rules = true)
    (b : Board) (hs : Sensible b) (hw : Drawable b) (hd : DiceOk b) (size : Int × Int) :
    drawSized rules size b = match setMag w h size with
      | .error x => .error x
      | .ok m => drawBoard rules (applyMag m) b := by
  obtain ⟨t', h1, -⟩ := theme_ok rules hr b hs hw hd
  unfold drawSized
  rw [(set_full b hs).1 hw]
  dsimp only
  rw [h1]
  dsimp only
  have : treeMag t' size = setMag w h size := by
    unfold ETree.board at h1
    obtain ⟨e, ks, hb, -, rfl⟩ := styled_inv h1
    unfold sizeIs at hsz
    rw [hb] at hsz
    simp only [Bool.and_eq_true, decide_eq_true_eq] at hsz
    unfold treeMag
    simp only [Tree.elem, bind, Except.bind, hsz.1, hsz.2]
  rw [this]
  cases hm : setMag w h size with
  | error x => rfl
  | ok m =>
    dsimp only
    unfold drawBoard
    rw [(set_full b hs).1 hw]
    dsimp only
    rw [h1]
    rfl

theorem shipped_size (s : Text × List Text) (h : s ∈ shipped) :
    ∃ rules, loadCss s.1 s.2 = .ok rules ∧ themeReady rules = true ∧ themeSeen rules = true ∧
      sizeIs rules (boardSize s.1).1 (boardSize s.1).2 = true := by
  simp only [shipped, List.mem_cons, List.not_mem_nil, or_false] at h
  rcases h with rfl | rfl | rfl | rfl | rfl | rfl | rfl | rfl
  · exact ⟨_, Deutsche.load, Deutsche.ready, Deutsche.seen, by decide +kernel⟩
  · exact ⟨_, Flower.load, Flower.ready, Flower.seen, by decide +kernel⟩
  · exact ⟨_, Kotobuki.load, Kotobuki.ready, Kotobuki.seen, by decide +kernel⟩
  · exact ⟨_, Matrix.load, Matrix.ready, Matrix.seen, by decide +kernel⟩
  · exact ⟨_, Minimal.load, Minimal.ready, Minimal.seen, by decide +kernel⟩
  · exact ⟨_, Nature.load, Nature.ready, Nature.seen, by decide +kernel⟩
  · exact ⟨_, Neon.load, Neon.ready, Neon.seen, by decide +kernel⟩
  · exact ⟨_, Safari.load, Safari.ready, Safari.seen, by decide +kernel⟩

/-! ### The plain picture lies in its frame -/

/-- A magnification of the board into the size: coordinates are multiplied by `B / W`, rounded. -/
structure Shrinks (scale : Int → Int) (B W : Int) : Prop where
  pos : 0 < B
  wpos : 0 < W
  low : ∀ x, 0 ≤ x → x ≤ 341 → 0 ≤ scale x ∧ W * scale x ≤ x * B ∧ x * B ≤ W * (scale x + 1)
  neg : ∀ x, 0 ≤ x → scale (-x) = - scale x
  pile : 5 * scale 18 ≤ scale 90

theorem fitting_shrinks {bw bh : Int} (hbw : SizeOk bw) (hbh : SizeOk bh) :
    ∃ B W, Shrinks (applyMag (fitting 341 262 bw bh)) B W ∧ 341 * B ≤ W * bw ∧ 262 * B ≤ W * bh := by
  have key : ∀ (B W : Int), SizeOk B → W = 341 ∨ W = 262 → Shrinks (applyMag (fl (B / W))) B W := by
    intro B W hB hW
    have hW0 : 0 < W := by omega
    have hm : (0 : ℚ) < fl (B / W) := fl_gt (div_pos (by exact_mod_cast hB.1) (by exact_mod_cast hW0))
    have hbig : ∀ x, 0 ≤ x → x ≤ 341 → x * B * 3 < 2 ^ 53 := by
      intro x h0 h1
      have : x * B ≤ 341 * 2 ^ 25 := Int.mul_le_mul h1 hB.2 hB.1.le (by norm_num)
      calc x * B * 3 ≤ 341 * 2 ^ 25 * 3 := by omega
        _ < 2 ^ 53 := by norm_num
    refine ⟨hB.1, hW0, fun x h0 h1 => applyMag_le hB.1 hW0 h0 (hbig x h0 h1), fun x h0 => applyMag_neg hm h0, ?_⟩
    have h18 := (applyMag_le (x := 18) hB.1 hW0 (by omega) (hbig _ (by omega) (by omega))).2.1
    rcases applyMag_near (x := 90) hB.1 hW0 (by omega) (hbig _ (by omega) (by omega)) with e | ⟨hd, -⟩
    · rw [e, Int.le_ediv_iff_mul_le hW0]
      calc _ = 5 * (W * applyMag (fl (B / W)) 18) := by ring
        _ ≤ 5 * (18 * B) := by omega
        _ = 90 * B := by ring
    · -- the magnification is a multiple of one half, so nothing is rounded
      obtain ⟨n, hn⟩ : ∃ n : Int, 2 * B = W * n := by
        obtain ⟨q, hq⟩ := hd
        rcases hW with rfl | rfl
        · exact ⟨2 * (B / 341), by omega⟩
        · exact ⟨2 * B / 262, by omega⟩
      have hn0 : 0 < n := by
        have : 0 < W * n := by have := hB.1; omega
        exact pos_of_mul_pos_right this hW0.le
      have hn1 : n < 2 ^ 27 := by
        have h1 : 1 * n ≤ W * n := Int.mul_le_mul_of_nonneg_right (by omega) hn0.le
        have := hB.2
        have : (2 : Int) ^ 25 * 2 < 2 ^ 27 := by norm_num
        omega
      have hr : (B : ℚ) / W = n / 2 ^ 1 := by
        have : (2 : ℚ) * B = W * n := by exact_mod_cast hn
        have hW' : (W : ℚ) ≠ 0 := by exact_mod_cast hW0.ne'
        rw [div_eq_div_iff hW' (by norm_num)]
        linarith
      have hbig2 : ∀ x : Int, 0 < x → x ≤ 90 → applyMag (fl (B / W)) x = x * n / 2 := by
        intro x h0 h1
        have hxn : x * n < 2 ^ 53 := by
          have : x * n ≤ 90 * 2 ^ 27 := Int.mul_le_mul h1 hn1.le hn0.le (by norm_num)
          exact this.trans_lt (by norm_num)
        have e2 := fl_exact (n := x * n) 1 (Int.mul_pos h0 hn0) hxn
        have e3 := fl_exact (n := n) 1 hn0 (hn1.trans (by norm_num))
        unfold applyMag
        rw [hr, e3, show (x : ℚ) * (n / 2 ^ 1) = ((x * n : ℤ) : ℚ) / 2 ^ 1 by push_cast; ring, e2]
        unfold truncate
        rw [if_neg (by
          have : (0 : ℚ) < ((x * n : ℤ) : ℚ) := by exact_mod_cast Int.mul_pos h0 hn0
          rw [not_lt]; positivity)]
        rw [pow_one]
        exact Rat.floor_intCast_div_natCast (x * n) 2
      rw [hbig2 18 (by omega) (by omega), hbig2 90 (by omega) (by omega)]
      omega
  unfold fitting
  by_cases h : WidthRules 341 262 bw bh
  · rw [if_pos h]
    exact ⟨bw, 341, key bw 341 hbw (.inl rfl), by omega, by unfold WidthRules at h; omega⟩
  · rw [if_neg h]
    exact ⟨bh, 262, key bh 262 hbh (.inr rfl), by unfold WidthRules at h; omega, by omega⟩

variable {scale : Int → Int} {B W bw bh : Int}

/-- `u` tells at most `x` units of the board. -/
theorem mul_le_iff' (hW : 0 < W) {a c : Int} (h : W * a ≤ W * c) : a ≤ c := le_of_mul_le_mul_left h hW

theorem fits_box (hk : Shrinks scale B W) (h1 : 341 * B ≤ W * bw) (h2 : 262 * B ≤ W * bh) {x y w h : Int}
    (hx : 0 ≤ x) (hy : 0 ≤ y) (hw : 0 ≤ w) (hh : 0 ≤ h) (hxw : x + w ≤ 341) (hyh : y + h ≤ 262) :
    BoxFits bw bh (scale x, scale y) (scale w, scale h) := by
  have a := hk.low x hx (by omega)
  have b := hk.low y hy (by omega)
  have c := hk.low w hw (by omega)
  have d := hk.low h hh (by omega)
  refine ⟨a.1, b.1, mul_le_iff' hk.wpos ?_, mul_le_iff' hk.wpos ?_⟩
  · dsimp only
    rw [Int.mul_add]
    have := Int.mul_le_mul_of_nonneg_right hxw hk.pos.le
    rw [Int.add_mul] at this
    omega
  · dsimp only
    rw [Int.mul_add]
    have := Int.mul_le_mul_of_nonneg_right hyh hk.pos.le
    rw [Int.add_mul] at this
    omega

/-- With a unit to spare on the board there is a pixel to spare in the picture. -/
theorem fits_more (hk : Shrinks scale B W) (h1 : 341 * B ≤ W * bw) (h2 : 262 * B ≤ W * bh) {x y w h : Int}
    (hx : 0 ≤ x) (hy : 0 ≤ y) (hw : 0 ≤ w) (hh : 0 ≤ h) (hxw : x + w ≤ 340) (hyh : y + h ≤ 261) :
    BoxFits bw bh (scale x, scale y) (scale w + 1, scale h + 1) := by
  have a := hk.low x hx (by omega)
  have b := hk.low y hy (by omega)
  have c := hk.low w hw (by omega)
  have d := hk.low h hh (by omega)
  have hB := hk.pos
  have l1 : 0 < bw - (scale x + scale w) := by
    apply pos_of_mul_pos_right (a := W) _ hk.wpos.le
    have := Int.mul_le_mul_of_nonneg_right hxw hB.le
    rw [Int.add_mul] at this
    rw [Int.mul_sub, Int.mul_add]
    omega
  have l2 : 0 < bh - (scale y + scale h) := by
    apply pos_of_mul_pos_right (a := W) _ hk.wpos.le
    have := Int.mul_le_mul_of_nonneg_right hyh hB.le
    rw [Int.add_mul] at this
    rw [Int.mul_sub, Int.mul_add]
    omega
  unfold BoxFits
  dsimp only
  omega

theorem boxFits_less {p s : Int × Int} (h : BoxFits bw bh p (s.1 + 1, s.2 + 1)) : BoxFits bw bh p s := by
  unfold BoxFits at h ⊢
  dsimp only at h
  omega

/-- All that is drawn lies in the picture. -/
def AllFit (bw bh : Int) (l : List Op) : Prop := ∀ o ∈ l, OpFits bw bh o

theorem fit_append {l m : List Op} (h1 : AllFit bw bh l) (h2 : AllFit bw bh m) : AllFit bw bh (l ++ m) := by
  intro o h
  rcases List.mem_append.1 h with h | h
  · exact h1 o h
  · exact h2 o h

theorem fit_cons {o : Op} {m : List Op} (h1 : OpFits bw bh o) (h2 : AllFit bw bh m) : AllFit bw bh (o :: m) := by
  intro o' h
  rcases List.mem_cons.1 h with h | h
  · exact h ▸ h1
  · exact h2 o' h

theorem fit_nil : AllFit bw bh [] := fun _ h => absurd h List.not_mem_nil

variable (hk : Shrinks scale B W) (h1 : 341 * B ≤ W * bw) (h2 : 262 * B ≤ W * bh)
include hk h1 h2

theorem fit_place {x y j dy : Int} (hx : 0 ≤ x) (hx' : x + 16 ≤ 340)
    (hd : (dy = 18 ∧ 0 ≤ y ∧ y ≤ 135) ∨ (dy = -18 ∧ y ≤ 210 ∧ 90 < y) ∨ (dy = -18 ∧ y = 90) ∨ (dy = -18 ∧ y = 80 ∧ j ≤ 4))
    (hj : 0 ≤ j) (hj' : j ≤ 5) : BoxFits bw bh (scale x, scale y + j * scale dy) (scale 16 + 1, scale 16 + 1) := by
  have a := fits_more hk h1 h2 hx (y := 0) (w := 16) (h := 16) (by omega) (by omega) (by omega) hx' (by omega)
  have c := hk.low 16 (by omega) (by omega)
  have d := hk.low 18 (by omega) (by omega)
  have e := hk.low y (by omega) (by omega)
  have hn := hk.neg 18 (by omega)
  have hp := hk.pile
  have hB := hk.pos
  have hW := hk.wpos
  have hj18 : 0 ≤ j * scale 18 := Int.mul_nonneg hj d.1
  have hjW : W * (j * scale 18) ≤ j * (18 * B) := by
    calc _ = j * (W * scale 18) := by ring
      _ ≤ j * (18 * B) := Int.mul_le_mul_of_nonneg_left d.2.1 hj
  have hj5 : j * scale 18 ≤ 5 * scale 18 := Int.mul_le_mul_of_nonneg_right hj' d.1
  refine ⟨a.1, ?_, a.2.2.1, ?_⟩ <;> dsimp only
  · rcases hd with ⟨hd, h0⟩ | ⟨hd, h0, h3⟩ | ⟨hd, h0⟩ | ⟨hd, h0, h3⟩ <;> subst hd
    · have := e.1; omega
    · rw [hn, Int.mul_neg]
      have : 0 < W * (scale y + 1 - j * scale 18) := by
        have h5 : j * (18 * B) ≤ 5 * (18 * B) := Int.mul_le_mul_of_nonneg_right hj' (by omega)
        have h6 : 91 * B ≤ y * B := Int.mul_le_mul_of_nonneg_right (by omega) hB.le
        rw [Int.mul_sub]
        omega
      have := pos_of_mul_pos_right this hW.le
      omega
    · subst h0; rw [hn, Int.mul_neg]; omega
    · subst h0
      rw [hn, Int.mul_neg]
      have : 0 < W * (scale 80 + 1 - j * scale 18) := by
        have h5 : j * (18 * B) ≤ 4 * (18 * B) := Int.mul_le_mul_of_nonneg_right h3 (by omega)
        rw [Int.mul_sub]
        omega
      have := pos_of_mul_pos_right this hW.le
      omega
  · have : 0 < bh - (scale y + j * scale dy + scale 16) := by
      apply pos_of_mul_pos_right (a := W) _ hW.le
      rw [Int.mul_sub]
      suffices W * (scale y + j * scale dy + scale 16) ≤ 261 * B by omega
      rcases hd with ⟨hd, h0, h3⟩ | ⟨hd, h0, h3⟩ | ⟨hd, h0⟩ | ⟨hd, h0, h3⟩ <;> subst hd
      · have h5 : j * (18 * B) ≤ 5 * (18 * B) := Int.mul_le_mul_of_nonneg_right hj' (by omega)
        have h6 : y * B ≤ 135 * B := Int.mul_le_mul_of_nonneg_right (by omega) hB.le
        rw [Int.mul_add, Int.mul_add]
        omega
      all_goals
        rw [hn, Int.mul_neg, Int.mul_add, Int.mul_add, Int.mul_neg]
        have h7 : 0 ≤ W * (j * scale 18) := Int.mul_nonneg hW.le hj18
        have h6 : y * B ≤ 210 * B := Int.mul_le_mul_of_nonneg_right (by omega) hB.le
        omega
    omega

theorem fit_pile {x y dy max : Int} {f c : Text} {n : Int} (hx : 0 ≤ x) (hx' : x + 16 ≤ 340)
    (hm : 0 ≤ max) (hm' : max ≤ 5)
    (hd : (dy = 18 ∧ 0 ≤ y ∧ y ≤ 135) ∨ (dy = -18 ∧ y ≤ 210 ∧ 90 < y) ∨ (dy = -18 ∧ y = 90) ∨
      (dy = -18 ∧ y = 80 ∧ max ≤ 4)) : AllFit bw bh ((Ink.mk scale).pile x y dy max f c n) := by
  have place : ∀ j : Int, 0 ≤ j → j ≤ max →
      BoxFits bw bh (scale x, scale y + j * scale dy) (scale 16 + 1, scale 16 + 1) := by
    intro j h3 h4
    refine fit_place hk h1 h2 hx hx' ?_ h3 (by omega)
    rcases hd with h | h | h | h
    · exact .inl h
    · exact .inr (.inl h)
    · exact .inr (.inr (.inl h))
    · exact .inr (.inr (.inr ⟨h.1, h.2.1, by omega⟩))
  unfold Ink.pile
  refine fit_append ?_ ?_
  · intro o ho
    obtain ⟨j, hj, rfl⟩ := List.mem_map.1 ho
    rw [List.mem_range] at hj
    exact place j (by omega) (by omega)
  · split
    · exact fit_cons (boxFits_less (place max hm (by omega))) fit_nil
    · exact fit_nil

theorem column_bounds {i : Nat} (h0 : 1 ≤ i) (h24 : i ≤ 24) : 0 ≤ column i ∧ column i + 18 ≤ 340 := by
  unfold column
  split
  · omega
  · split
    · omega
    · split <;> omega

theorem fit_triangle {i : Nat} (hi : 1 ≤ i) (hi' : i ≤ 24) (c : Text) :
    OpFits bw bh ((Ink.mk scale).triangle i c) := by
  have hc := column_bounds hk h1 h2 hi hi'
  have a := fits_more hk h1 h2 hc.1 (y := 139) (w := 18) (h := 88) (by omega) (by omega) (by omega) hc.2 (by omega)
  have b := fits_more hk h1 h2 hc.1 (y := 5) (w := 18) (h := 88) (by omega) (by omega) (by omega) hc.2 (by omega)
  have w0 := (hk.low 18 (by omega) (by omega)).1
  have w1 := (hk.low 88 (by omega) (by omega)).1
  unfold BoxFits at a b
  dsimp only at a b
  unfold Ink.triangle
  dsimp only
  split <;> (intro p hp; simp only [List.mem_cons, List.not_mem_nil, or_false] at hp)
  all_goals
    unfold BoxFits
    rcases hp with rfl | rfl | rfl <;> dsimp only <;> omega

theorem fit_point {pal : Palette} {i : Nat} {you him : Int} (hi : 1 ≤ i) (hi' : i ≤ 24) :
    AllFit bw bh ((Ink.mk scale).point pal i you him) := by
  have hc := column_bounds hk h1 h2 hi hi'
  unfold Ink.point
  dsimp only
  refine fit_cons (fit_triangle hk h1 h2 hi hi' _) ?_
  have p1 : ∀ c n, AllFit bw bh ((Ink.mk scale).pile (column i) 210 (-18) 5 pal.font c n) := fun c n =>
    fit_pile hk h1 h2 hc.1 (by omega) (by omega) (by omega) (by omega)
  have p2 : ∀ c n, AllFit bw bh ((Ink.mk scale).pile (column i) 6 18 5 pal.font c n) := fun c n =>
    fit_pile hk h1 h2 hc.1 (by omega) (by omega) (by omega) (by omega)
  split <;> rename_i h
  · exact fit_append (p1 _ _) (p1 _ _)
  · exact fit_append (p2 _ _) (p2 _ _)

theorem fit_rect {x y w h : Int} {c : Text} (hx : 0 ≤ x) (hy : 0 ≤ y) (hw : 0 ≤ w) (hh : 0 ≤ h) (hxw : x + w ≤ 341)
    (hyh : y + h ≤ 262) : OpFits bw bh ((Ink.mk scale).rect x y w h c) := fits_box hk h1 h2 hx hy hw hh hxw hyh

theorem fit_text {x y w h : Int} {t f c : Text} (hx : 0 ≤ x) (hy : 0 ≤ y) (hw : 0 ≤ w) (hh : 0 ≤ h) (hxw : x + w ≤ 341)
    (hyh : y + h ≤ 262) : OpFits bw bh ((Ink.mk scale).text x y w h t f c) := fits_box hk h1 h2 hx hy hw hh hxw hyh

theorem fit_die {x : Int} {c ink : Text} {n : Int} (hx : 43 ≤ x) (hx' : x ≤ 300) :
    AllFit bw bh ((Ink.mk scale).die x 95 c ink n) := by
  unfold Ink.die
  refine fit_cons (fit_rect hk h1 h2 (by omega) (by omega) (by omega) (by omega) (by omega) (by omega)) ?_
  intro o ho
  obtain ⟨e, he, rfl⟩ := List.mem_map.1 ho
  have hq : 0 ≤ e.1 ∧ e.1 ≤ 3 ∧ 0 ≤ e.2 ∧ e.2 ≤ 3 := by
    unfold eyes at he
    repeat' split at he
    all_goals
      simp only [List.mem_cons, List.not_mem_nil, or_false] at he
      rcases he with rfl | he
      · simp
      try rcases he with rfl | he
      all_goals try simp
      all_goals try rcases he with rfl | he
      all_goals try simp
      all_goals try rcases he with rfl | he
      all_goals try simp
      all_goals try rcases he with rfl | he
      all_goals try simp
      all_goals try rcases he with rfl | he
      all_goals try simp
      all_goals try (subst he; simp)
  have a := hk.low x (by omega) (by omega)
  have b := hk.low 95 (by omega) (by omega)
  have s := hk.low 16 (by omega) (by omega)
  have t := hk.low 3 (by omega) (by omega)
  have hB := hk.pos
  have hW := hk.wpos
  have hxB : 43 * B ≤ x * B := Int.mul_le_mul_of_nonneg_right hx hB.le
  have hxB' : x * B ≤ 300 * B := Int.mul_le_mul_of_nonneg_right hx' hB.le
  have l1 : 0 < scale x + 1 - scale 3 := by
    apply pos_of_mul_pos_right (a := W) _ hW.le
    rw [Int.mul_sub]; omega
  have l2 : 0 < scale 95 + 1 - scale 3 := by
    apply pos_of_mul_pos_right (a := W) _ hW.le
    rw [Int.mul_sub]; omega
  have u1 : 0 < bw - (scale x + scale 16 + scale 3) := by
    apply pos_of_mul_pos_right (a := W) _ hW.le
    rw [Int.mul_sub, Int.mul_add, Int.mul_add]; omega
  have u2 : 0 < bh - (scale 95 + scale 16 + scale 3) := by
    apply pos_of_mul_pos_right (a := W) _ hW.le
    rw [Int.mul_sub, Int.mul_add, Int.mul_add]; omega
  have v1 : 0 ≤ scale 16 * e.1 := Int.mul_nonneg s.1 hq.1
  have v2 : 0 ≤ scale 16 * e.2 := Int.mul_nonneg s.1 hq.2.2.1
  have w1 : scale 16 * e.1 ≤ scale 16 * 3 := Int.mul_le_mul_of_nonneg_left hq.2.1 s.1
  have w2 : scale 16 * e.2 ≤ scale 16 * 3 := Int.mul_le_mul_of_nonneg_left hq.2.2.2 s.1
  show BoxFits bw bh _ _
  unfold BoxFits
  dsimp only
  have := s.1
  have := t.1
  omega

theorem fit_cube {pal : Palette} {x y : Int} {n : Nat} (hx : 0 ≤ x) (hy : 0 ≤ y) (hx' : x + 25 ≤ 341) (hy' : y + 25 ≤ 262) :
    AllFit bw bh ((Ink.mk scale).cube pal x y n) :=
  fit_cons (fit_rect hk h1 h2 hx hy (by omega) (by omega) hx' hy')
    (fit_cons (fit_text hk h1 h2 hx hy (by omega) (by omega) hx' hy') fit_nil)

theorem fit_cubeAt {pal : Palette} {b : Board} {o : Int} : AllFit bw bh ((Ink.mk scale).cubeAt pal b o) := by
  unfold Ink.cubeAt
  repeat' split
  · exact fit_nil
  all_goals exact fit_cube hk h1 h2 (by omega) (by omega) (by omega) (by omega)

theorem fit_field {pal : Palette} {b : Board} {p : Int} : AllFit bw bh ((Ink.mk scale).field pal b p) := by
  unfold Ink.field
  dsimp only
  refine fit_cons (fit_text hk h1 h2 ?_ (by omega) (by omega) (by omega) ?_ (by omega)) ?_
  · split <;> omega
  · split <;> omega
  repeat' split
  all_goals first
    | exact fit_nil
    | exact fit_append (fit_die hk h1 h2 (by omega) (by omega)) (fit_die hk h1 h2 (by omega) (by omega))
    | exact fit_cube hk h1 h2 (by omega) (by omega) (by omega) (by omega)
    | exact fit_cons (fit_text hk h1 h2 (by omega) (by omega) (by omega) (by omega) (by omega) (by omega)) fit_nil

theorem fit_picture (pal : Palette) (b : Board) : AllFit bw bh ((Ink.mk scale).picture pal b) := by
  have r : ∀ {x y w h : Int} {c : Text}, 0 ≤ x → 0 ≤ y → 0 ≤ w → 0 ≤ h → x + w ≤ 341 → y + h ≤ 262 →
    OpFits bw bh ((Ink.mk scale).rect x y w h c) := fit_rect hk h1 h2
  have t : ∀ {x y w h : Int} {s f c : Text}, 0 ≤ x → 0 ≤ y → 0 ≤ w → 0 ≤ h → x + w ≤ 341 → y + h ≤ 262 →
    OpFits bw bh ((Ink.mk scale).text x y w h s f c) := fit_text hk h1 h2
  have hp : AllFit bw bh ((List.range 24).flatMap (fun i =>
      (Ink.mk scale).point pal (i + 1) (cnt b.position.1 i) (cnt b.position.2 (23 - i)))) := by
    intro o ho
    obtain ⟨i, hi, ho⟩ := List.mem_flatMap.1 ho
    rw [List.mem_range] at hi
    exact fit_point hk h1 h2 (by omega) (by omega) o ho
  have hr : AllFit bw bh (if b.crawford then [(Ink.mk scale).text 291 93 25 46 t!"*" pal.font pal.crawfordInk] else []) := by
    split
    · exact fit_cons (t (by omega) (by omega) (by omega) (by omega) (by omega) (by omega)) fit_nil
    · exact fit_nil
  have ha : AllFit bw bh [(Ink.mk scale).rect 0 0 341 262 pal.board, (Ink.mk scale).rect 291 0 50 232 pal.sheet,
      (Ink.mk scale).rect 0 232 341 30 pal.action,
      (Ink.mk scale).text 0 232 341 30 (actionWords b).2 pal.font (ofSide (actionWords b).1 pal.actionInk),
      (Ink.mk scale).text 316 93 25 46 (pyStr b.matchLength) pal.font pal.lengthInk] :=
    fit_cons (r (by omega) (by omega) (by omega) (by omega) (by omega) (by omega))
    (fit_cons (r (by omega) (by omega) (by omega) (by omega) (by omega) (by omega))
    (fit_cons (r (by omega) (by omega) (by omega) (by omega) (by omega) (by omega))
    (fit_cons (t (by omega) (by omega) (by omega) (by omega) (by omega) (by omega))
    (fit_cons (t (by omega) (by omega) (by omega) (by omega) (by omega) (by omega)) fit_nil))))
  have hb : AllFit bw bh [(Ink.mk scale).text 291 139 50 93 (pyStr b.score.1) pal.font pal.scoreInk.1,
      (Ink.mk scale).text 291 0 50 93 (pyStr b.score.2) pal.font pal.scoreInk.2,
      (Ink.mk scale).rect 0 0 291 232 pal.position, (Ink.mk scale).rect 0 0 291 5 pal.frame,
      (Ink.mk scale).rect 0 227 291 5 pal.frame, (Ink.mk scale).rect 0 5 25 224 pal.holder] :=
    fit_cons (t (by omega) (by omega) (by omega) (by omega) (by omega) (by omega))
    (fit_cons (t (by omega) (by omega) (by omega) (by omega) (by omega) (by omega))
    (fit_cons (r (by omega) (by omega) (by omega) (by omega) (by omega) (by omega))
    (fit_cons (r (by omega) (by omega) (by omega) (by omega) (by omega) (by omega))
    (fit_cons (r (by omega) (by omega) (by omega) (by omega) (by omega) (by omega))
    (fit_cons (r (by omega) (by omega) (by omega) (by omega) (by omega) (by omega)) fit_nil)))))
  unfold Ink.picture
  iterate 12 refine fit_append ?_ ?_
  all_goals first
    | exact ha
    | exact hb
    | exact hp
    | exact hr
    | exact fit_cubeAt hk h1 h2
    | exact fit_field hk h1 h2
    | exact fit_cons (r (by omega) (by omega) (by omega) (by omega) (by omega) (by omega))
        (fit_pile hk h1 h2 (by omega) (by omega) (by omega) (by omega) (by omega))

end Bglib
