import Verif.Lemmas.Fits
import Verif.Props.Layout
/-
C69: a picture of any size.
-/
namespace Bglib
open Spec Img

/-- What `set_mag` does: if the tighter side is sharp, the magnification fills it, otherwise an assertion fails. -/
theorem C69_size (w h bw bh : Int) (hw : SizeOk w) (hh : SizeOk h) (hbw : SizeOk bw) (hbh : SizeOk bh) :
    setMag w h (bw, bh) = if SharpSize w h bw bh then .ok (fitting w h bw bh) else .error .assertion :=
  setMag_eq hw hh hbw hbh

example : SharpSize 341 262 341 262 ∧ ¬ SharpSize 341 262 390 390 ∧ SharpSize 341 262 400 400 := by decide +kernel

/-- Every shipped style draws every board at every sharp size, and at no other. -/
theorem C69_draws (s : Text × List Text) (h : s ∈ shipped) :
    ∃ rules, loadCss s.1 s.2 = .ok rules ∧
      ∀ (b : Board) (bw bh : Int), Sensible b → Drawable b → DiceOk b → SizeOk bw → SizeOk bh →
        (SharpSize (boardSize s.1).1 (boardSize s.1).2 bw bh → ∃ ops, drawSized rules (bw, bh) b = .ok ops) ∧
        (¬ SharpSize (boardSize s.1).1 (boardSize s.1).2 bw bh → drawSized rules (bw, bh) b = .error .assertion) := by
  obtain ⟨rules, hl, hr, hs, hz⟩ := shipped_size s h
  refine ⟨rules, hl, fun b bw bh h1 h2 h3 hbw hbh => ?_⟩
  have hsz : SizeOk (boardSize s.1).1 ∧ SizeOk (boardSize s.1).2 := by
    unfold boardSize SizeOk
    repeat' split
    all_goals decide
  rw [drawSized_eq hz hr b h1 h2 h3, setMag_eq hsz.1 hsz.2 hbw hbh]
  refine ⟨fun x => ?_, fun x => ?_⟩
  · rw [if_pos x]
    exact theme_draws rules hr hs b h1 h2 h3 _
  · rw [if_neg x]

/-- Which widths and heights up to 500 are not sharp. -/
theorem C69_blunt (w : Int) (hw : w ∈ [341, 262, 232, 1000, 800]) (b : Nat) (h0 : 0 < b) (h : b ≤ 500) :
    ¬ Sharp w b ↔ b ∈ blunt w := by
  have key : ∀ w ∈ [(341 : Int), 262, 232, 1000, 800], ∀ b ∈ List.range 501, 0 < b → (¬ Sharp w b ↔ b ∈ blunt w) := by
    decide +kernel
  exact key w hw b (List.mem_range.2 (by omega)) h0

example : 390 ∈ blunt 341 ∧ 400 ∉ blunt 341 := by decide

/-- The board cannot be drawn at 390 × 390 with the plain styles. -/
theorem C69_false :
    ∃ rules, loadCss Deutsche.path Deutsche.lines = .ok rules ∧
      drawSized rules (390, 390) opening = .error .assertion ∧
      drawSized rules (400, 400) opening = drawBoard rules (applyMag (fl (400 / 341))) opening := by
  obtain ⟨h1, h2, h3⟩ : Sensible opening ∧ Drawable opening ∧ DiceOk opening :=
    ⟨⟨by decide, by decide, by decide, by unfold TurnsOk; decide⟩, .inl (by decide), .inr (by decide)⟩
  have hz : sizeIs Deutsche.rules 341 262 = true := by decide +kernel
  have s0 : ¬ SharpSize 341 262 390 390 := by decide +kernel
  have s1 : SharpSize 341 262 400 400 := by decide +kernel
  have sz : ∀ n ∈ [(341 : Int), 262, 390, 400], SizeOk n := by unfold SizeOk; decide
  refine ⟨Deutsche.rules, Deutsche.load, ?_, ?_⟩
  · rw [drawSized_eq hz Deutsche.ready _ h1 h2 h3, setMag_eq (sz _ (by decide)) (sz _ (by decide)) (sz _ (by decide)) (sz _ (by decide)), if_neg s0]
  · rw [drawSized_eq hz Deutsche.ready _ h1 h2 h3, setMag_eq (sz _ (by decide)) (sz _ (by decide)) (sz _ (by decide)) (sz _ (by decide)), if_pos s1]
    rfl

/-- The size of the style itself and its multiples are always sharp. -/
theorem C69_multiple (w h k : Int) (hw : SizeOk w) (hh : SizeOk h) (hk : SizeOk k) : SharpSize w h (k * w) (k * h) := by
  have key : ∀ {x : Int}, SizeOk x → Sharp x (k * x) := by
    intro x hx
    have hx0 : (x : ℚ) ≠ 0 := by exact_mod_cast hx.1.ne'
    have hk1 : k < 2 ^ 53 := hk.2.trans_lt (by norm_num)
    have hm := size_mul hx hk
    unfold Sharp
    rw [show ((k * x : Int) : ℚ) / x = k by push_cast; field_simp, fl_int hk.1 hk1,
      show (x : ℚ) * k = ((x * k : Int) : ℚ) by push_cast; rfl, fl_int hm.1 (by omega), Int.mul_comm]
  exact ⟨fun _ => key hw, fun _ => key hh⟩

example : SizeOk 341 ∧ SizeOk 262 ∧ SizeOk 1 := by unfold SizeOk; decide

/-- How a coordinate is scaled: the exact value is rounded down, and where it is a whole number it may come out one
too small.  A negative offset is scaled as its opposite. -/
theorem C69_scale (w b x : Int) (hw : SizeOk w) (hb : SizeOk b) (hx : SizeOk x) :
    (applyMag (fl (b / w)) x = x * b / w ∨ (w ∣ x * b ∧ applyMag (fl (b / w)) x = x * b / w - 1)) ∧
      applyMag (fl (b / w)) (-x) = - applyMag (fl (b / w)) x := by
  have hm := size_mul hx hb
  refine ⟨applyMag_near hb.1 hw.1 hx.1 (by omega), applyMag_neg ?_ hx.1.le⟩
  exact fl_gt (div_pos (by exact_mod_cast hb.1) (by exact_mod_cast hw.1))

/-- One too small does happen: in a picture 29 wide the board of the plain styles is 28 wide. -/
theorem C69_false_exact : ∃ w b x : Int, x ≤ w ∧ applyMag (fl (b / w)) x = x * b / w - 1 ∧ w ∣ x * b :=
  ⟨341, 29, 341, by decide +kernel⟩

/-- With the plain styles everything drawn lies in the picture, at every sharp size; what is drawn is the picture C68
describes. -/
theorem C69_plain (s : Text × List Text × Palette) (h : s ∈ plainStyles) :
    ∃ rules, loadCss s.1 s.2.1 = .ok rules ∧
      ∀ (b : Board) (bw bh : Int), Sensible b → Drawable b → DiceOk b → SizeOk bw → SizeOk bh →
        SharpSize 341 262 bw bh →
        drawSized rules (bw, bh) b = .ok ((Ink.mk (applyMag (fitting 341 262 bw bh))).picture s.2.2 b) ∧
        ∀ o ∈ (Ink.mk (applyMag (fitting 341 262 bw bh))).picture s.2.2 b, OpFits bw bh o := by
  have hship : (s.1, s.2.1) ∈ shipped ∧ boardSize s.1 = (341, 262) := by
    simp only [plainStyles, List.mem_cons, List.not_mem_nil, or_false] at h
    rcases h with rfl | rfl | rfl | rfl | rfl | rfl <;> exact ⟨by simp [shipped], by decide +kernel⟩
  obtain ⟨rules, hl, hr, -, hz⟩ := shipped_size _ hship.1
  dsimp only at hl hz
  rw [hship.2] at hz
  obtain ⟨rules', hl', hp, -⟩ := plain_ready s h
  have : rules' = rules := Except.ok.inj (hl'.symm.trans hl)
  subst this
  refine ⟨rules', hl, fun b bw bh h1 h2 h3 hbw hbh hsz => ⟨?_, ?_⟩⟩
  · rw [drawSized_eq hz hr b h1 h2 h3, setMag_eq (by unfold SizeOk; decide) (by unfold SizeOk; decide) hbw hbh,
      if_pos hsz]
    exact plain_picture (k := ⟨applyMag (fitting 341 262 bw bh)⟩) hp b h1 h2 h3 (applyMag_zero _)
  · obtain ⟨B, W, hk, e1, e2⟩ := fitting_shrinks hbw hbh
    exact fit_picture hk e1 e2 s.2.2 b

/-- What `C69_fits` says of a style. -/
private def Fit (s : Text × List Text) : Prop :=
    ∃ rules, loadCss s.1 s.2 = .ok rules ∧
      ∀ (b : Board) (bw bh : Int), Sensible b → Drawable b → DiceOk b → SizeOk bw → SizeOk bh →
        SharpSize (boardSize s.1).1 (boardSize s.1).2 bw bh →
        ∃ ops, drawSized rules (bw, bh) b = .ok ops ∧ ∀ o ∈ ops, OpFits bw bh o

private theorem plain_fit {s : Text × List Text} (pal : Palette) (hp : (s.1, s.2, pal) ∈ plainStyles)
    (hb : boardSize s.1 = (341, 262)) : Fit s := by
  obtain ⟨rules, hl, hr⟩ := C69_plain (s.1, s.2, pal) hp
  unfold Fit
  rw [hb]
  exact ⟨rules, hl, fun b bw bh h1 h2 h3 h4 h5 h6 => ⟨_, hr b bw bh h1 h2 h3 h4 h5 h6⟩⟩

private theorem image_fit {s : Text × List Text} (rows : Bool) (rules : List Rule) (w0 h0 : Int) (hb : boardSize s.1 = (w0, h0))
    (hl : loadCss s.1 s.2 = .ok rules) (hr : themeReady rules = true) (hsn : themeSeen rules = true)
    (hz : sizeIs rules w0 h0 = true) (hall : themeAll (elemIn rows w0 h0) rules = true)
    (z1 : SizeOk w0) (z2 : SizeOk h0) (z3 : w0 ≤ 1000) (z4 : h0 ≤ 1000)
    (hrow : ∀ B W : Int, (W = w0 ∨ W = h0) → Scales (applyMag (fl (B / W))) B W 1000 → rows = true →
      Rows (applyMag (fl (B / W)))) : Fit s := by
  unfold Fit
  rw [hb]
  refine ⟨rules, hl, fun b bw bh h1 h2 h3 h4 h5 h6 => ?_⟩
  obtain ⟨ops, ho⟩ := theme_draws rules hr hsn b h1 h2 h3 (applyMag (fitting w0 h0 bw bh))
  refine ⟨ops, ?_, ?_⟩
  · rw [drawSized_eq hz hr b h1 h2 h3, setMag_eq z1 z2 h4 h5, if_pos h6]
    exact ho
  · obtain ⟨B, W, hW, -, e, hk, e1, e2⟩ := fitting_scales (M := 1000) z1 z2 (by norm_num) h4 h5
    rw [e] at hk ho
    exact theme_fits hk e1 e2 z3 z4 (by norm_num) (hrow B W hW hk) hall b h1 h2 h3 ops ho

/-- With each of the styles that come with the library everything drawn lies in the picture, at every sharp size. -/
theorem C69_fits (s : Text × List Text) (h : s ∈ shipped) :
    ∃ rules, loadCss s.1 s.2 = .ok rules ∧
      ∀ (b : Board) (bw bh : Int), Sensible b → Drawable b → DiceOk b → SizeOk bw → SizeOk bh →
        SharpSize (boardSize s.1).1 (boardSize s.1).2 bw bh →
        ∃ ops, drawSized rules (bw, bh) b = .ok ops ∧ ∀ o ∈ ops, OpFits bw bh o := by
  simp only [shipped, List.mem_cons, List.not_mem_nil, or_false] at h
  rcases h with rfl | rfl | rfl | rfl | rfl | rfl | rfl | rfl
  · exact plain_fit deutsche (by simp [plainStyles]) (by decide +kernel)
  · exact plain_fit flower (by simp [plainStyles]) (by decide +kernel)
  · exact plain_fit kotobuki (by simp [plainStyles]) (by decide +kernel)
  · exact image_fit true Matrix.rules 1000 800 (by decide +kernel) Matrix.load Matrix.ready Matrix.seen (by decide +kernel)
      (by decide +kernel) (by unfold SizeOk; decide) (by unfold SizeOk; decide) (by norm_num) (by norm_num)
      fun B W hW hk _ => rows_of hW hk
  · exact plain_fit minimal (by simp [plainStyles]) (by decide +kernel)
  · exact plain_fit nature (by simp [plainStyles]) (by decide +kernel)
  · exact plain_fit neon (by simp [plainStyles]) (by decide +kernel)
  · exact image_fit false Safari.rules 341 232 (by decide +kernel) Safari.load Safari.ready Safari.seen (by decide +kernel)
      (by decide +kernel) (by unfold SizeOk; decide) (by unfold SizeOk; decide) (by norm_num) (by norm_num)
      fun B W hW hk hf => Bool.noConfusion hf

/-- The board of the style matrix fits a picture of its size. -/
example : SharpSize (boardSize Matrix.path).1 (boardSize Matrix.path).2 500 400 ∧ boardSize Matrix.path = (1000, 800) :=
  ⟨by decide +kernel, by decide +kernel⟩

end Bglib
