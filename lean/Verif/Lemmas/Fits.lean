import Verif.Lemmas.MagSize
/-
What is drawn for an element lies in the picture if its attributes say so; for styles that draw with images.
-/
namespace Bglib
open Spec Img

/-- Coordinates up to `M` are multiplied by `B / W`, rounded. -/
structure Scales (scale : Int → Int) (B W M : Int) : Prop where
  pos : 0 < B
  wpos : 0 < W
  low : ∀ x, 0 ≤ x → x ≤ M → 0 ≤ scale x ∧ W * scale x ≤ x * B ∧ x * B ≤ W * (scale x + 1)
  neg : ∀ x, 0 ≤ x → scale (-x) = - scale x
  zero : scale 0 = 0

/-- How three points in a row and two rows below are scaled. -/
def Rows (scale : Int → Int) : Prop :=
  ∀ w : Int, 0 ≤ w → w ≤ 2 → (3 * w + 2) * scale 30 + scale 20 ≤ scale 100 + w * scale 90

/-! ### Checks of attributes -/

/-- The box of an element lies in a board of this size. -/
def boxIn (w0 h0 : Int) (up : List Elem) : Bool :=
  match attrInt t!"width" up, attrInt t!"height" up, attrInt t!"x" up, attrInt t!"y" up with
  | .ok w, .ok h, .ok x, .ok y =>
    decide (0 ≤ x ∧ 0 ≤ y ∧ 0 ≤ w ∧ 0 ≤ h ∧ x + w ≤ w0 ∧ y + h ≤ h0)
  | _, _, _, _ => false

/-- So does its box moved `n` times by an offset that is not negative. -/
def stepsIn (w0 h0 : Int) (up : List Elem) (n ox oy : Int) : Bool :=
  match attrInt t!"width" up, attrInt t!"height" up, attrInt t!"x" up, attrInt t!"y" up with
  | .ok w, .ok h, .ok x, .ok y =>
    decide (0 ≤ ox ∧ 0 ≤ oy ∧ 0 ≤ x ∧ 0 ≤ y ∧ 0 ≤ w ∧ 0 ≤ h ∧ x + n * ox + w ≤ w0 ∧ y + n * oy + h ≤ h0 ∧ ox ≤ w0 ∧ oy ≤ h0)
  | _, _, _, _ => false

/-- A pile in rows of three, as on the points of the style matrix. -/
def rowsIn (w0 h0 : Int) (up : List Elem) : Bool :=
  match attrInt t!"x" up, attrInt t!"y" up with
  | .ok x, .ok y =>
    decide (attrInt t!"width" up = .ok 20 ∧ attrInt t!"height" up = .ok 20 ∧ attrInt t!"max_count" up = .ok 8 ∧
      attrIntOr0 t!"x_offset" up = 30 ∧ attrIntOr0 t!"y_offset" up = 0 ∧ attrIntOr0 t!"x_offset2" up = -90 ∧
      attrIntOr0 t!"y_offset2" up = 30 ∧ attrInt t!"x" up.tail = .ok x ∧ attrInt t!"y" up.tail = .ok y ∧
      attrInt t!"width" up.tail = .ok 100 ∧ attrInt t!"height" up.tail = .ok 100 ∧
      11 ≤ x ∧ 0 ≤ y ∧ x + 100 ≤ w0 ∧ y + 100 ≤ h0)
  | _, _ => false

/-- A pile lies in the board; `rows` tells whether there may be piles in rows. -/
def pileIn (rows : Bool) (w0 h0 : Int) (up : List Elem) : Bool :=
  (attrTruthy t!"image" up).isSome &&
  ((rows && rowsIn w0 h0 up) ||
    match attrInt t!"max_count" up with
    | .ok m => decide (0 ≤ m ∧ attrIntOr0 t!"x_offset2" up = 0 ∧ attrIntOr0 t!"y_offset2" up = 0) &&
        stepsIn w0 h0 up m (attrIntOr0 t!"x_offset" up) (attrIntOr0 t!"y_offset" up)
    | .error _ => false)

/-- What an element draws itself lies in the board. -/
def kindIn (rows : Bool) (w0 h0 : Int) (n : EName) (up : List Elem) : Bool :=
  match n with
  | .die | .point => (attrTruthy t!"image" up).isSome && boxIn w0 h0 up
  | .chequer => pileIn rows w0 h0 up
  | .resign => boxIn w0 h0 up && stepsIn w0 h0 up 3 (attrIntOr0 t!"x_offset" up) (attrIntOr0 t!"y_offset" up)
  | _ => boxIn w0 h0 up

/-- What is drawn for an element lies in the board. -/
def elemIn (rows : Bool) (w0 h0 : Int) (up : List Elem) : Bool :=
  match up with
  | [] => false
  | e :: _ =>
    (!hasAttr t!"background" up || boxIn w0 h0 up) &&
    (!(hasAttr t!"image" up || hasAttr t!"color" up) || kindIn rows w0 h0 e.name up)

theorem elemIn_data (rows : Bool) (w0 h0 : Int) : Textless (elemIn rows w0 h0) := fun _ _ _ => rfl

/-! ### Drawing in a box -/

/-- An operation that fills a box. -/
def InBox (p s : Int × Int) (o : Op) : Prop := (∃ t f c, o = .text p s t f c) ∨ (∃ i f, o = .image i s f p) ∨ ∃ c, o = .rect p s c

theorem inBox_fits {bw bh : Int} {p s : Int × Int} {o : Op} (h : InBox p s o) (hb : BoxFits bw bh p s) : OpFits bw bh o := by
  rcases h with ⟨t, f, c, rfl⟩ | ⟨i, f, rfl⟩ | ⟨c, rfl⟩ <;> exact hb

/-- All operations fill the box. -/
def AllIn (p s : Int × Int) (ops : List Op) : Prop := ∀ o ∈ ops, InBox p s o

theorem allIn_nil {p s : Int × Int} : AllIn p s [] := fun _ h => absurd h List.not_mem_nil

theorem allIn_text {p s : Int × Int} (t f c : Text) : AllIn p s [.text p s t f c] := by
  intro o h; rw [List.mem_singleton] at h; exact .inl ⟨t, f, c, h⟩

theorem allIn_image {p s : Int × Int} (i : Text) (f : Bool) : AllIn p s [.image i s f p] := by
  intro o h; rw [List.mem_singleton] at h; exact .inr (.inl ⟨i, f, h⟩)

theorem paste_in {i : Text} {up : List Elem} {p s : Int × Int} {ops : List Op} (h : paste i up p s = .ok ops) : AllIn p s ops := by
  unfold paste at h
  simp only [bind, Except.bind, pure, Except.pure] at h
  cases hf : attrFlag t!"flip" up with
  | error x => rw [hf] at h; cases h
  | ok f => rw [hf] at h; cases h; exact allIn_image i f

section
variable {scale : Int → Int} {up : List Elem} {p s : Int × Int} (hb : boxOf scale up = .ok (p, s))
include hb

theorem base_in {ops : List Op} (h : drawBase scale up = .ok ops) : AllIn p s ops := by
  unfold drawBase at h
  simp only [bind, Except.bind, pure, Except.pure, hb] at h
  cases hi : attrText? t!"image" up with
  | none => rw [hi] at h; cases h; exact allIn_nil
  | some i => rw [hi] at h; exact paste_in h

theorem label_in {ops : List Op} (h : drawLabel scale up = .ok ops) : AllIn p s ops := by
  unfold drawLabel at h
  simp only [bind, Except.bind, pure, Except.pure, hb] at h
  cases hi : attrTruthy t!"image" up with
  | some i => rw [hi] at h; exact paste_in h
  | none =>
    rw [hi] at h
    cases hf : attrTruthy t!"font" up with
    | none => rw [hf] at h; cases h; exact allIn_nil
    | some f =>
      rw [hf] at h
      dsimp only at h
      cases ht : firstText up with
      | error x => rw [ht] at h; cases h
      | ok t =>
        rw [ht] at h
        dsimp only at h
        cases hc : needColor up with
        | error x => rw [hc] at h; cases h
        | ok c => rw [hc] at h; cases h; exact allIn_text _ _ _

theorem crawford_in {ops : List Op} (h : drawCrawford scale up = .ok ops) : AllIn p s ops := by
  unfold drawCrawford at h
  simp only [bind, Except.bind, pure, Except.pure, hb] at h
  cases hi : attrTruthy t!"image" up with
  | some i => rw [hi] at h; exact paste_in h
  | none =>
    rw [hi] at h
    cases hf : attrTruthy t!"font" up with
    | none => rw [hf] at h; cases h; exact allIn_nil
    | some f =>
      rw [hf] at h
      dsimp only at h
      cases ht : firstText up with
      | error x => rw [ht] at h; cases h
      | ok t =>
        rw [ht] at h
        dsimp only at h
        split at h
        · cases hc : needColor up with
          | error x => rw [hc] at h; cases h
          | ok c => rw [hc] at h; cases h; exact allIn_text _ _ _
        · cases h; exact allIn_nil

theorem field_in {ops : List Op} (h : drawField scale up = .ok ops) : AllIn p s ops := by
  unfold drawField at h
  simp only [bind, Except.bind, pure, Except.pure, hb] at h
  cases hi : attrTruthy t!"image" up with
  | some i => rw [hi] at h; cases h; exact allIn_image _ _
  | none =>
    rw [hi] at h
    cases ht : attrTruthy t!"text" up with
    | none => rw [ht] at h; cases h; exact allIn_nil
    | some t =>
      rw [ht] at h
      cases hf : attrTruthy t!"font" up with
      | none => rw [hf] at h; cases h; exact allIn_nil
      | some f => rw [hf] at h; cases h; exact allIn_text _ _ _

theorem cube_in {ops : List Op} (h : drawCube scale up = .ok ops) : AllIn p s ops := by
  unfold drawCube at h
  simp only [bind, Except.bind, pure, Except.pure, hb] at h
  cases hi : attrTruthy t!"image" up with
  | some i => rw [hi] at h; exact paste_in h
  | none =>
    rw [hi] at h
    cases hf : attrTruthy t!"font" up with
    | none => rw [hf] at h; cases h
    | some f =>
      rw [hf] at h
      dsimp only at h
      cases hn : firstInt up with
      | error x => rw [hn] at h; cases h
      | ok n =>
        rw [hn] at h
        dsimp only at h
        split at h <;> cases h <;> exact allIn_text _ _ _

theorem die_in {ops : List Op} (hi : (attrTruthy t!"image" up).isSome = true) (h : drawDie scale up = .ok ops) : AllIn p s ops := by
  unfold drawDie at h
  simp only [bind, Except.bind, pure, Except.pure, hb] at h
  obtain ⟨i, hi⟩ := Option.isSome_iff_exists.1 hi
  cases hs : lookupAttr t!"diestyle" up with
  | error x => rw [hs] at h; cases h
  | ok v => rw [hs, hi] at h; exact paste_in h

theorem point_in {ops : List Op} (hi : (attrTruthy t!"image" up).isSome = true) (h : drawPoint scale up = .ok ops) : AllIn p s ops := by
  unfold drawPoint at h
  simp only [bind, Except.bind, pure, Except.pure, hb] at h
  obtain ⟨i, hi⟩ := Option.isSome_iff_exists.1 hi
  rw [hi] at h
  exact paste_in h

theorem back_in {ops : List Op} (h : bgDraw scale up = .ok ops) : AllIn p s ops := by
  unfold bgDraw at h
  cases hc : attrText? t!"background" up with
  | none => rw [hc] at h; cases h
  | some c =>
    rw [hc] at h
    simp only [bind, Except.bind, pure, Except.pure, hb] at h
    cases h
    intro o ho
    rw [List.mem_singleton] at ho
    exact .inr (.inr ⟨c, ho⟩)
end

/-! ### Boxes in the picture -/

theorem box_read {w h x y : Int} {up : List Elem} (e1 : attrInt t!"width" up = .ok w) (e2 : attrInt t!"height" up = .ok h)
    (e3 : attrInt t!"x" up = .ok x) (e4 : attrInt t!"y" up = .ok y) (scale : Int → Int) :
    boxOf scale up = .ok ((scale x, scale y), (scale w, scale h)) := by
  unfold boxOf
  simp only [bind, Except.bind, pure, Except.pure, e1, e2, e3, e4]

/-- The attributes a check has read. -/
theorem stepsIn_read {w0 h0 n ox oy : Int} {up : List Elem} (hs : stepsIn w0 h0 up n ox oy = true) :
    ∃ w h x y, attrInt t!"width" up = .ok w ∧ attrInt t!"height" up = .ok h ∧ attrInt t!"x" up = .ok x ∧
      attrInt t!"y" up = .ok y ∧ 0 ≤ ox ∧ 0 ≤ oy ∧ 0 ≤ x ∧ 0 ≤ y ∧ 0 ≤ w ∧ 0 ≤ h ∧ x + n * ox + w ≤ w0 ∧
      y + n * oy + h ≤ h0 ∧ ox ≤ w0 ∧ oy ≤ h0 := by
  unfold stepsIn at hs
  split at hs
  · next w h x y e1 e2 e3 e4 =>
    rw [decide_eq_true_eq] at hs
    exact ⟨w, h, x, y, e1, e2, e3, e4, hs⟩
  · cases hs

theorem boxIn_read {w0 h0 : Int} {up : List Elem} (hs : boxIn w0 h0 up = true) :
    ∃ w h x y, attrInt t!"width" up = .ok w ∧ attrInt t!"height" up = .ok h ∧ attrInt t!"x" up = .ok x ∧
      attrInt t!"y" up = .ok y ∧ 0 ≤ x ∧ 0 ≤ y ∧ 0 ≤ w ∧ 0 ≤ h ∧ x + w ≤ w0 ∧ y + h ≤ h0 := by
  unfold boxIn at hs
  split at hs
  · next w h x y e1 e2 e3 e4 =>
    rw [decide_eq_true_eq] at hs
    exact ⟨w, h, x, y, e1, e2, e3, e4, hs⟩
  · cases hs

variable {rows : Bool} {scale : Int → Int} {B W M bw bh w0 h0 : Int}

/-- A place `n` steps from the corner of a box. -/
theorem side_fits (hk : Scales scale B W M) {n x w o a0 a : Int} (h1 : a0 * B ≤ W * a) (hM : a0 ≤ M) (hn : 0 ≤ n)
    (hx : 0 ≤ x) (hw : 0 ≤ w) (ho : 0 ≤ o) (hoa : o ≤ a0) (hs : x + n * o + w ≤ a0) :
    0 ≤ scale x + n * scale o ∧ scale x + n * scale o + scale w ≤ a := by
  have hno : 0 ≤ n * o := Int.mul_nonneg hn ho
  have lx := hk.low x hx (by omega)
  have lw := hk.low w hw (by omega)
  have lo := hk.low o ho (by omega)
  have hnn : 0 ≤ n * scale o := Int.mul_nonneg hn lo.1
  refine ⟨by omega, mul_le_iff' hk.wpos ?_⟩
  have e := Int.mul_le_mul_of_nonneg_right hs hk.pos.le
  have f := Int.mul_le_mul_of_nonneg_left lo.2.1 hn
  calc W * (scale x + n * scale o + scale w) = W * scale x + n * (W * scale o) + W * scale w := by ring
    _ ≤ x * B + n * (o * B) + w * B := by omega
    _ = (x + n * o + w) * B := by ring
    _ ≤ a0 * B := e
    _ ≤ W * a := h1

theorem boxIn_fits (hk : Scales scale B W M) (h1 : w0 * B ≤ W * bw) (h2 : h0 * B ≤ W * bh) (hw : w0 ≤ M) (hh : h0 ≤ M)
    {up : List Elem} (hs : boxIn w0 h0 up = true) :
    ∃ p s, boxOf scale up = .ok (p, s) ∧ BoxFits bw bh p s := by
  obtain ⟨w, h, x, y, e1, e2, e3, e4, a1, a2, a3, a4, a5, a6⟩ := boxIn_read hs
  refine ⟨_, _, box_read e1 e2 e3 e4 scale, ?_⟩
  have s1 := side_fits hk (n := 0) (x := x) (w := w) (o := 0) h1 hw (by omega) a1 a3 (by omega) (by omega) (by omega)
  have s2 := side_fits hk (n := 0) (x := y) (w := h) (o := 0) h2 hh (by omega) a2 a4 (by omega) (by omega) (by omega)
  unfold BoxFits
  dsimp only
  omega

/-! ### Chips and piles -/

theorem chips_mem {src : Text} {size off : Int × Int} {o : Op} (n : Nat) (p : Int × Int) (h : o ∈ chips src size off n p) :
    ∃ k : Int, 0 ≤ k ∧ k ≤ n ∧ o = .image src size false (p.1 + k * off.1, p.2 + k * off.2) := by
  induction n generalizing p with
  | zero => simp [chips] at h
  | succ n ih =>
    rw [chips, List.mem_cons] at h
    rcases h with rfl | h
    · exact ⟨1, by omega, by push_cast; omega, by rw [Int.one_mul, Int.one_mul]⟩
    · obtain ⟨k, h0, h1, rfl⟩ := ih _ h
      refine ⟨k + 1, by omega, by push_cast; omega, ?_⟩
      dsimp only
      rw [Int.add_mul, Int.add_mul]
      congr 2 <;> ring

/-- Without second offsets the places are in a line. -/
theorem line_mem (l : Pile) (h2 : l.off2 = (0, 0)) (n : Nat) (p q : Int × Int) :
    (q ∈ (l.places n p).1 ∨ q = (l.places n p).2) →
      ∃ k : Int, 0 ≤ k ∧ k ≤ n ∧ q = (p.1 + k * l.off.1, p.2 + k * l.off.2) := by
  have hn : ∀ p, l.next p = (p.1 + l.off.1, p.2 + l.off.2) := by
    intro p
    unfold Pile.next
    rw [h2]
    simp
  induction n generalizing p with
  | zero =>
    rintro (h | rfl)
    · simp [Pile.places] at h
    · exact ⟨0, by omega, by omega, by simp [Pile.places]⟩
  | succ n ih =>
    have step : (q ∈ (l.places n (l.next p)).1 ∨ q = (l.places n (l.next p)).2) →
        ∃ k : Int, 0 ≤ k ∧ k ≤ (n + 1 : Nat) ∧ q = (p.1 + k * l.off.1, p.2 + k * l.off.2) := by
      intro h
      obtain ⟨k, a, b, rfl⟩ := ih _ h
      refine ⟨k + 1, by omega, by push_cast; omega, ?_⟩
      rw [hn]
      dsimp only
      rw [Int.add_mul, Int.add_mul]
      congr 1 <;> ring
    rintro (h | h)
    · rw [Pile.places, List.mem_cons] at h
      rcases h with rfl | h
      · exact ⟨0, by omega, by push_cast; omega, by simp⟩
      · exact step (.inl h)
    · exact step (.inr h)

/-- The places of a pile in rows. -/
structure InRow (scale : Int → Int) (x y k : Int) (q : Int × Int) : Prop where
  row : ∃ w : Int, 0 ≤ w ∧ 3 * w ≤ k ∧ q = (scale x + k * scale 30 - w * scale 90, scale y + w * scale 30)
  low : 0 ≤ q.1
  high : q.1 + scale 20 ≤ scale x + scale 100

theorem row_next (hk : Scales scale B W M) (hr : Rows scale) (hM : 100 ≤ M) {x y k : Int} (hx : 11 ≤ x) (hx' : x ≤ M)
    (hk0 : 0 ≤ k) (hk8 : k < 8) {q : Int × Int} (h : InRow scale x y k q) :
    InRow scale x y (k + 1)
      (Pile.next ⟨(scale 20, scale 20), (scale 30, 0), (scale (-90), scale 30), (scale x + scale 100, scale y + scale 100)⟩ q) := by
  obtain ⟨⟨w, h0, h3, rfl⟩, hl, hh⟩ := h
  have l20 := hk.low 20 (by omega) (by omega)
  have l30 := hk.low 30 (by omega) (by omega)
  have l90 := hk.low 90 (by omega) (by omega)
  have l100 := hk.low 100 (by omega) (by omega)
  have lx := hk.low x (by omega) hx'
  have hneg := hk.neg 90 (by omega)
  have hB := hk.pos
  have hW := hk.wpos
  have hle : scale 30 ≤ scale 90 := by
    by_contra hc
    have : W * (scale 90 + 1) ≤ W * scale 30 := Int.mul_le_mul_of_nonneg_left (by omega) hW.le
    omega
  have h16 : scale 20 + scale 90 ≤ scale x + scale 100 + 1 := by
    by_contra hc
    have e1 : W * (scale x + scale 100 + 2) ≤ W * (scale 20 + scale 90) := Int.mul_le_mul_of_nonneg_left (by omega) hW.le
    have e2 : 11 * B ≤ x * B := Int.mul_le_mul_of_nonneg_right hx hB.le
    have e3 : W * (scale x + scale 100 + 2) = W * (scale x + 1) + W * (scale 100 + 1) := by ring
    have e4 : W * (scale 20 + scale 90) = W * scale 20 + W * scale 90 := by ring
    omega
  have hw2 : w ≤ 2 := by omega
  have hy : w * scale 30 + scale 20 ≤ scale 100 := by
    have := hr 0 (by omega) (by omega)
    have : w * scale 30 ≤ 2 * scale 30 := Int.mul_le_mul_of_nonneg_right hw2 l30.1
    omega
  unfold Pile.next
  dsimp only at hl hh ⊢
  split
  · next hc =>
    have hc : scale x + k * scale 30 - w * scale 90 + scale 30 + scale 20 > scale x + scale 100 := by omega
    have h3' : 3 * (w + 1) ≤ k + 1 := by
      by_contra hlt
      have : (k + 1) * scale 30 ≤ (3 * w + 2) * scale 30 := Int.mul_le_mul_of_nonneg_right (by omega) l30.1
      have e := hr w h0 hw2
      have : (k + 1) * scale 30 = k * scale 30 + scale 30 := by ring
      omega
    refine ⟨⟨w + 1, by omega, h3', ?_⟩, ?_, ?_⟩
    · rw [hneg]
      have : (k + 1) * scale 30 = k * scale 30 + scale 30 := by ring
      have : (w + 1) * scale 90 = w * scale 90 + scale 90 := by ring
      have : (w + 1) * scale 30 = w * scale 30 + scale 30 := by ring
      refine Prod.ext ?_ ?_ <;> dsimp only <;> omega
    · dsimp only; omega
    · dsimp only; omega
  · next hc =>
    refine ⟨⟨w, h0, by omega, ?_⟩, ?_, ?_⟩
    · have : (k + 1) * scale 30 = k * scale 30 + scale 30 := by ring
      refine Prod.ext ?_ ?_ <;> dsimp only <;> omega
    · dsimp only; omega
    · dsimp only; omega

theorem rowPile_mem (hk : Scales scale B W M) (hr : Rows scale) (hM : 100 ≤ M) {x y : Int} (hx : 11 ≤ x) (hx' : x ≤ M)
    (n : Nat) (k : Int) (hk0 : 0 ≤ k) (hk8 : k + n ≤ 8) (p q : Int × Int) (hp : InRow scale x y k p) :
    let l : Pile := ⟨(scale 20, scale 20), (scale 30, 0), (scale (-90), scale 30), (scale x + scale 100, scale y + scale 100)⟩
    (q ∈ (l.places n p).1 ∨ q = (l.places n p).2) → ∃ j : Int, 0 ≤ j ∧ j ≤ 8 ∧ InRow scale x y j q := by
  intro l
  induction n generalizing p k with
  | zero =>
    rintro (h | rfl)
    · simp [Pile.places] at h
    · exact ⟨k, hk0, by push_cast at hk8; omega, hp⟩
  | succ n ih =>
    push_cast at hk8
    have hn := row_next hk hr hM hx hx' hk0 (by omega) hp
    have step := ih (k + 1) (by omega) (by omega) _ hn
    rintro (h | h)
    · rw [Pile.places, List.mem_cons] at h
      rcases h with rfl | h
      · exact ⟨k, hk0, by omega, hp⟩
      · exact step (.inl h)
    · exact step (.inr h)

theorem row_fits (hk : Scales scale B W M) (h1 : w0 * B ≤ W * bw) (h2 : h0 * B ≤ W * bh)
    (hw : w0 ≤ M) (hh : h0 ≤ M) {x y j : Int} (hx : 11 ≤ x) (hy : 0 ≤ y) (hxw : x + 100 ≤ w0) (hyh : y + 100 ≤ h0)
    (hj : j ≤ 8) {q : Int × Int} (h : InRow scale x y j q) : BoxFits bw bh q (scale 20, scale 20) := by
  obtain ⟨⟨w, a0, a3, rfl⟩, hl, hh'⟩ := h
  have s1 := side_fits hk (n := 0) (x := x) (w := 100) (o := 0) h1 hw (by omega) (by omega) (by omega) (by omega) (by omega) (by omega)
  have s2 := side_fits hk (n := w) (x := y) (w := 20) (o := 30) h2 hh a0 hy (by omega) (by omega) (by omega) (by omega)
  unfold BoxFits
  dsimp only at hl hh' ⊢
  omega

/-! ### Elements and trees -/

/-- What the check of a pile has found. -/
theorem mark_image {up : List Elem} {m : Mark} (hi : (attrTruthy t!"image" up).isSome = true) (h : chequerMark up = .ok m) :
    ∃ i f, m = .image i f := by
  obtain ⟨i, hi⟩ := Option.isSome_iff_exists.1 hi
  unfold chequerMark at h
  simp only [hi, bind, Except.bind, pure, Except.pure] at h
  cases hf : attrFlag t!"flip" up with
  | error x => rw [hf] at h; cases h
  | ok f => rw [hf] at h; cases h; exact ⟨i, f, rfl⟩

theorem pileLabel_fits {up : List Elem} {count max : Int} {p s : Int × Int} (h : BoxFits bw bh p s) :
    AllFit bw bh (pileLabel up count max p s) := by
  unfold pileLabel
  split
  · split
    · intro o ho; rw [List.mem_singleton] at ho; subst ho; exact h
    · exact fit_nil
  · exact fit_nil

/-- If all places of a pile are in the picture, the pile is. -/
theorem pile_fits {up : List Elem} {p s : Int × Int} (hb : boxOf scale up = .ok (p, s)) {m : Int}
    (hm : attrInt t!"max_count" up = .ok m) (hi : (attrTruthy t!"image" up).isSome = true) {ops : List Op}
    (h : drawChequer scale up = .ok ops) (hp : BoxFits bw bh p s)
    (hl : ∀ c, cornerOf scale up = .ok c → ∀ n : Nat, (n : Int) ≤ m → ∀ q,
      (q ∈ ((pileOf scale up s c).places n p).1 ∨ q = ((pileOf scale up s c).places n p).2) → BoxFits bw bh q s) :
    AllFit bw bh ops := by
  unfold drawChequer at h
  simp only [bind, Except.bind, pure, Except.pure, hb, hm] at h
  cases hc : firstInt up with
  | error x => rw [hc] at h; cases h
  | ok count =>
    rw [hc] at h
    dsimp only at h
    split at h
    · cases h; exact pileLabel_fits hp
    · next hz =>
      cases hmk : chequerMark up with
      | error x => rw [hmk] at h; cases h
      | ok mk =>
        rw [hmk] at h
        dsimp only at h
        cases hco : cornerOf scale up with
        | error x => rw [hco] at h; cases h
        | ok c =>
          rw [hco] at h
          dsimp only at h
          have hall := hl c hco (min count m).toNat (by omega)
          cases h
          refine fit_append ?_ (pileLabel_fits (hall _ (.inr rfl)))
          intro o ho
          rw [List.mem_map] at ho
          obtain ⟨q, hq, rfl⟩ := ho
          obtain ⟨i, f, rfl⟩ := mark_image hi hmk
          exact hall q (.inl hq)

theorem attrIntOr0_zero_of {n : Text} {up : List Elem} {i : Int} (h : attrInt n up = .ok i) : attrIntOr0 n up = i := by
  unfold attrIntOr0; rw [h]

section
variable (hk : Scales scale B W M) (h1 : w0 * B ≤ W * bw) (h2 : h0 * B ≤ W * bh) (hw : w0 ≤ M) (hh : h0 ≤ M)
include hk h1 h2 hw hh

theorem chequer_fits (hM : 100 ≤ M) (hr : rows = true → Rows scale) {up : List Elem}
    (hs : pileIn rows w0 h0 up = true) {ops : List Op} (h : drawChequer scale up = .ok ops) : AllFit bw bh ops := by
  unfold pileIn at hs
  rw [Bool.and_eq_true, Bool.or_eq_true] at hs
  obtain ⟨hi, hs⟩ := hs
  rcases hs with hs | hs
  · rw [Bool.and_eq_true] at hs
    have hr := hr hs.1
    have hs := hs.2
    unfold rowsIn at hs
    split at hs
    · next x y e3 e4 =>
      rw [decide_eq_true_eq] at hs
      obtain ⟨e1, e2, e5, o1, o2, o3, o4, c1, c2, c3, c4, x1, y1, x2, y2⟩ := hs
      have l20 := hk.low 20 (by omega) (by omega)
      have hb := box_read e1 e2 e3 e4 scale
      have start : InRow scale x y 0 (scale x, scale y) := by
        refine ⟨⟨0, by omega, by omega, by simp⟩, (hk.low x (by omega) (by omega)).1, ?_⟩
        have := hr 0 (by omega) (by omega)
        have := (hk.low 30 (by omega) (by omega)).1
        dsimp only
        omega
      refine pile_fits hb e5 hi h (row_fits hk h1 h2 hw hh x1 y1 x2 y2 (by omega) start) ?_
      intro c hc n hn q hq
      have hc' : c = (scale x + scale 100, scale y + scale 100) := by
        cases up with
        | nil => simp [cornerOf] at hc
        | cons e par =>
          unfold cornerOf at hc
          simp only [List.tail_cons] at c1 c2 c3 c4
          simp only [bind, Except.bind, pure, Except.pure, c1, c2, c3, c4] at hc
          cases hc; rfl
      have hpile : pileOf scale up (scale 20, scale 20) c = ⟨(scale 20, scale 20), (scale 30, 0), (scale (-90), scale 30),
          (scale x + scale 100, scale y + scale 100)⟩ := by
        unfold pileOf
        rw [o1, o2, o3, o4, hc', hk.zero]
      rw [hpile] at hq
      obtain ⟨j, j0, j8, hj⟩ := rowPile_mem hk hr hM x1 (by omega) n 0 (by omega) (by omega) _ q start hq
      exact row_fits hk h1 h2 hw hh x1 y1 x2 y2 j8 hj
    · cases hs
  · split at hs
    · next m e5 =>
      rw [Bool.and_eq_true, decide_eq_true_eq] at hs
      obtain ⟨⟨m0, o3, o4⟩, hs⟩ := hs
      obtain ⟨w, v, x, y, e1, e2, e3, e4, a1, a2, a3, a4, a5, a6, a7, a8, a9, a10⟩ := stepsIn_read hs
      have key : ∀ k : Int, 0 ≤ k → k ≤ m →
          BoxFits bw bh (scale x + k * scale (attrIntOr0 t!"x_offset" up), scale y + k * scale (attrIntOr0 t!"y_offset" up))
            (scale w, scale v) := by
        intro k k0 km
        have b1 : k * attrIntOr0 t!"x_offset" up ≤ m * attrIntOr0 t!"x_offset" up := Int.mul_le_mul_of_nonneg_right km a1
        have b2 : k * attrIntOr0 t!"y_offset" up ≤ m * attrIntOr0 t!"y_offset" up := Int.mul_le_mul_of_nonneg_right km a2
        have s1 := side_fits hk (n := k) (x := x) (w := w) h1 hw k0 a3 a5 a1 a9 (by omega)
        have s2 := side_fits hk (n := k) (x := y) (w := v) h2 hh k0 a4 a6 a2 a10 (by omega)
        unfold BoxFits
        dsimp only
        omega
      have hb := box_read e1 e2 e3 e4 scale
      refine pile_fits hb e5 hi h (by simpa using key 0 (by omega) m0) ?_
      intro c hc n hn q hq
      obtain ⟨k, k0, k1, rfl⟩ := line_mem (pileOf scale up (scale w, scale v) c) (by
        unfold pileOf; rw [o3, o4, hk.zero]) n _ q hq
      exact key k k0 (by omega)
    · cases hs

theorem resign_fits {e : Elem} {up : List Elem} (hd : dataReady e) (hn : e.name = .resign)
    (hs : kindIn rows w0 h0 .resign (e :: up) = true) {ops : List Op} (h : drawResign scale (e :: up) = .ok ops) :
    AllFit bw bh ops := by
  unfold dataReady at hd
  rw [hn] at hd
  obtain ⟨n, hn3, hdat⟩ := hd
  unfold kindIn at hs
  dsimp only at hs
  rw [Bool.and_eq_true] at hs
  obtain ⟨hbx, hs⟩ := hs
  obtain ⟨p, s, hb', hfit⟩ := boxIn_fits hk h1 h2 hw hh hbx
  obtain ⟨w, v, x, y, e1, e2, e3, e4, a1, a2, a3, a4, a5, a6, a7, a8, a9, a10⟩ := stepsIn_read hs
  have hb := box_read e1 e2 e3 e4 scale
  have := Except.ok.inj (hb'.symm.trans hb)
  cases this
  unfold drawResign at h
  simp only [bind, Except.bind, pure, Except.pure, hb] at h
  cases hx : attrInt t!"x_offset" (e :: up) with
  | error z => rw [hx] at h; cases h
  | ok ox =>
    rw [hx] at h
    dsimp only at h
    cases hy : attrInt t!"y_offset" (e :: up) with
    | error z => rw [hy] at h; cases h
    | ok oy =>
      rw [hy] at h
      dsimp only at h
      rw [attrIntOr0_zero_of hx] at a1 a7 a9
      rw [attrIntOr0_zero_of hy] at a2 a8 a10
      rw [firstInt_of hdat] at h
      cases hi : attrTruthy t!"image" (e :: up) with
      | some i =>
        rw [hi] at h
        dsimp only at h
        cases h
        intro o ho
        obtain ⟨k, k0, k1, rfl⟩ := chips_mem _ _ ho
        have k3 : k ≤ 3 := by omega
        have b1 : k * ox ≤ 3 * ox := Int.mul_le_mul_of_nonneg_right k3 a1
        have b2 : k * oy ≤ 3 * oy := Int.mul_le_mul_of_nonneg_right k3 a2
        have s1 := side_fits hk (n := k) (x := x) (w := w) h1 hw k0 a3 a5 a1 a9 (by omega)
        have s2 := side_fits hk (n := k) (x := y) (w := v) h2 hh k0 a4 a6 a2 a10 (by omega)
        unfold OpFits BoxFits
        dsimp only
        omega
      | none =>
        rw [hi] at h
        cases hf : attrTruthy t!"font" (e :: up) with
        | none => rw [hf] at h; cases h
        | some f =>
          rw [hf] at h
          dsimp only at h
          cases hg : pyGet resignStrings (n : Int) with
          | error z => rw [hg] at h; cases h
          | ok t =>
            rw [hg] at h
            cases h
            intro o ho
            rw [List.mem_singleton] at ho
            subst ho
            exact hfit

/-- What is drawn for an element. -/
theorem elem_fits (hM : 100 ≤ M) (hr : rows = true → Rows scale) {e : Elem} {up : List Elem}
    (hs : elemIn rows w0 h0 (e :: up) = true) (hd : dataReady e) {ops : List Op} (h : drawElement scale (e :: up) = .ok ops) :
    AllFit bw bh ops := by
  unfold elemIn at hs
  dsimp only at hs
  rw [Bool.and_eq_true] at hs
  obtain ⟨hback, hown⟩ := hs
  unfold drawElement at h
  simp only [bind, Except.bind, pure, Except.pure] at h
  cases ha : backOps scale (e :: up) with
  | error x => rw [ha] at h; cases h
  | ok a =>
    rw [ha] at h
    dsimp only at h
    cases hb : ownOps scale (e :: up) with
    | error x => rw [hb] at h; cases h
    | ok b =>
      rw [hb] at h
      cases h
      refine fit_append ?_ ?_
      · unfold backOps at ha
        split at ha
        · next hc =>
          rw [hc] at hback
          obtain ⟨p, s, hbox, hfit⟩ := boxIn_fits hk h1 h2 hw hh (by simpa using hback)
          exact fun o ho => inBox_fits (back_in hbox ha o ho) hfit
        · cases ha; exact fit_nil
      · unfold ownOps at hb
        split at hb
        · next hc =>
          rw [hc] at hown
          have hkind : kindIn rows w0 h0 e.name (e :: up) = true := by simpa using hown
          unfold drawElem at hb
          dsimp only at hb
          have plain : ∀ p s, boxOf scale (e :: up) = .ok (p, s) → AllIn p s b → boxIn w0 h0 (e :: up) = true →
              AllFit bw bh b := by
            intro p s hbox hin hbi
            obtain ⟨p', s', hbox', hfit⟩ := boxIn_fits hk h1 h2 hw hh hbi
            have := Except.ok.inj (hbox.symm.trans hbox')
            cases this
            exact fun o ho => inBox_fits (hin o ho) hfit
          have box : boxIn w0 h0 (e :: up) = true → ∃ p s, boxOf scale (e :: up) = .ok (p, s) := by
            intro hbi
            obtain ⟨p', s', hbox', -⟩ := boxIn_fits hk h1 h2 hw hh hbi
            exact ⟨p', s', hbox'⟩
          cases hn : e.name <;> rw [hn] at hkind hb <;> dsimp only at hb
          case chequer => exact chequer_fits hk h1 h2 hw hh hM hr hkind hb
          case resign => exact resign_fits hk h1 h2 hw hh hd hn hkind hb
          case die =>
            unfold kindIn at hkind
            dsimp only at hkind
            rw [Bool.and_eq_true] at hkind
            obtain ⟨p, s, hbox⟩ := box hkind.2
            exact plain p s hbox (die_in hbox hkind.1 hb) hkind.2
          case point =>
            unfold kindIn at hkind
            dsimp only at hkind
            rw [Bool.and_eq_true] at hkind
            obtain ⟨p, s, hbox⟩ := box hkind.2
            exact plain p s hbox (point_in hbox hkind.1 hb) hkind.2
          case cube =>
            obtain ⟨p, s, hbox⟩ := box hkind
            exact plain p s hbox (cube_in hbox hb) hkind
          case crawford =>
            obtain ⟨p, s, hbox⟩ := box hkind
            exact plain p s hbox (crawford_in hbox hb) hkind
          case field =>
            obtain ⟨p, s, hbox⟩ := box hkind
            exact plain p s hbox (field_in hbox hb) hkind
          all_goals
            obtain ⟨p, s, hbox⟩ := box hkind
            first
            | exact plain p s hbox (base_in hbox hb) hkind
            | exact plain p s hbox (label_in hbox hb) hkind
        · cases hb; exact fit_nil

mutual
theorem each_fits (hM : 100 ≤ M) (hr : rows = true → Rows scale) (up : List Elem) (t : Tree)
    (ht : Each (Fine (elemIn rows w0 h0)) up t) (ops : List Op) (h : t.drawn scale up = .ok ops) : AllFit bw bh ops := by
  cases t with
  | node e kids =>
    obtain ⟨a, b, ha, hb, rfl⟩ := drawn_inv h
    obtain ⟨t1, t2⟩ := ht
    exact fit_append (elem_fits hk h1 h2 hw hh hM hr t1.1 t1.2 ha) (eachAll_fits hM hr _ kids t2 b hb)
theorem eachAll_fits (hM : 100 ≤ M) (hr : rows = true → Rows scale) (up : List Elem) (ts : List Tree)
    (ht : EachAll (Fine (elemIn rows w0 h0)) up ts) (ops : List Op) (h : drawnAll scale up ts = .ok ops) : AllFit bw bh ops := by
  cases ts with
  | nil => cases h; exact fit_nil
  | cons t ts =>
    obtain ⟨a, b, ha, hb, rfl⟩ := drawnAll_inv h
    obtain ⟨t1, t2⟩ := ht
    exact fit_append (each_fits hM hr up t t1 a ha) (eachAll_fits hM hr up ts t2 b hb)
end

/-- Every picture of a style that passes the check lies in its frame. -/
theorem theme_fits {rules : List Rule} (hM : 100 ≤ M) (hr : rows = true → Rows scale)
    (hall : themeAll (elemIn rows w0 h0) rules = true) (b : Board) (hs : Sensible b) (hd : Drawable b) (hdc : DiceOk b)
    (ops : List Op) (h : drawBoard rules scale b = .ok ops) : AllFit bw bh ops := by
  obtain ⟨t, ht, he⟩ := theme_is (elemIn_data rows w0 h0) rules hall b hs hd hdc
  unfold drawBoard at h
  rw [(set_full b hs).1 hd] at h
  dsimp only at h
  rw [ht] at h
  dsimp only at h
  cases ho : t.drawn scale [] with
  | error x => rw [ho] at h; cases h
  | ok os =>
    rw [ho] at h
    dsimp only at h
    unfold resultOf at h
    split at h
    · cases h
    · cases h
      exact each_fits hk h1 h2 hw hh hM hr [] t he _ ho

end

/-! ### Magnifications -/

theorem fitting_scales {w0 h0 bw bh M : Int} (hw : SizeOk w0) (hh : SizeOk h0) (hM : M ≤ 2 ^ 25)
    (hbw : SizeOk bw) (hbh : SizeOk bh) :
    ∃ B W, (W = w0 ∨ W = h0) ∧ SizeOk B ∧ fitting w0 h0 bw bh = fl (B / W) ∧
      Scales (applyMag (fitting w0 h0 bw bh)) B W M ∧ w0 * B ≤ W * bw ∧ h0 * B ≤ W * bh := by
  have key : ∀ (B W : Int), SizeOk B → SizeOk W → Scales (applyMag (fl (B / W))) B W M := by
    intro B W hB hW
    have hm : (0 : ℚ) < fl (B / W) := fl_gt (div_pos (by exact_mod_cast hB.1) (by exact_mod_cast hW.1))
    have hbig : ∀ x, 0 ≤ x → x ≤ M → x * B * 3 < 2 ^ 53 := by
      intro x h0 h1
      have : x * B ≤ 2 ^ 25 * 2 ^ 25 := Int.mul_le_mul (h1.trans hM) hB.2 hB.1.le (by norm_num)
      calc x * B * 3 ≤ 2 ^ 25 * 2 ^ 25 * 3 := by omega
        _ < 2 ^ 53 := by norm_num
    exact ⟨hB.1, hW.1, fun x h0 h1 => applyMag_le hB.1 hW.1 h0 (hbig x h0 h1), fun x h0 => applyMag_neg hm h0, applyMag_zero _⟩
  unfold fitting
  by_cases h : WidthRules w0 h0 bw bh
  · rw [if_pos h]
    exact ⟨bw, w0, .inl rfl, hbw, rfl, key bw w0 hbw hw, le_refl _, by unfold WidthRules at h; rw [Int.mul_comm h0, Int.mul_comm w0]; exact h⟩
  · rw [if_neg h]
    exact ⟨bh, h0, .inr rfl, hbh, rfl, key bh h0 hbh hh, by unfold WidthRules at h; rw [Int.mul_comm w0, Int.mul_comm h0]; omega, le_refl _⟩

/-- Rows at small sizes. -/
def rowsSmall (W : Int) (n : Nat) : Bool :=
  (List.range n).all fun k =>
    let s := applyMag (fl ((((k + 1 : Nat) : Int) : Rat) / (W : Rat)))
    decide (2 * s 30 + s 20 ≤ s 100 ∧ 5 * s 30 + s 20 ≤ s 100 + s 90 ∧ 8 * s 30 + s 20 ≤ s 100 + 2 * s 90)

theorem rows_small : rowsSmall 1000 150 = true ∧ rowsSmall 800 120 = true := by decide +kernel

theorem rows_of {B W : Int} (hW : W = 1000 ∨ W = 800) (hk : Scales (applyMag (fl (B / W))) B W 1000) :
    Rows (applyMag (fl (B / W))) := by
  have hB := hk.pos
  by_cases hbig : 3 * W ≤ 20 * B
  · intro w w0 w2
    have l20 := hk.low 20 (by omega) (by omega)
    have l30 := hk.low 30 (by omega) (by omega)
    have l90 := hk.low 90 (by omega) (by omega)
    have l100 := hk.low 100 (by omega) (by omega)
    refine mul_le_iff' hk.wpos ?_
    have : w = 0 ∨ w = 1 ∨ w = 2 := by omega
    rcases this with rfl | rfl | rfl <;> rcases hW with rfl | rfl <;> omega
  · have small : ∀ n, rowsSmall W n = true → B ≤ n → Rows (applyMag (fl (B / W))) := by
      intro n hn hBn
      unfold rowsSmall at hn
      rw [List.all_eq_true] at hn
      have := hn (B.toNat - 1) (List.mem_range.2 (by omega))
      rw [show ((B.toNat - 1 + 1 : Nat) : Int) = B by omega] at this
      simp only [decide_eq_true_eq] at this
      intro w w0 w2
      have : w = 0 ∨ w = 1 ∨ w = 2 := by omega
      rcases this with rfl | rfl | rfl <;> omega
    rcases hW with rfl | rfl
    · exact small 150 rows_small.1 (by omega)
    · exact small 120 rows_small.2 (by omega)

end Bglib
