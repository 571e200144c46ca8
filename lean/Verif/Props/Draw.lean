import Verif.Lemmas.Draw
/-
C66: what an element draws, for any style and any magnification.
-/
namespace Bglib
open Spec Img

/-- A die with `n` eyes, drawn with dots, gets exactly `n` dots; when the dots are at most a quarter of the die
they lie in the die and do not touch each other. -/
theorem C66_die (scale : Int → Int) (up : List Elem) (p s : Int × Int) (k : Int) (n : Nat)
    (hb : boxOf scale up = .ok (p, s)) (hi : attrTruthy t!"image" up = none)
    (hst : lookupAttr t!"diestyle" up = .ok (.str t!"dot")) (hk : attrInt t!"eyesize" up = .ok k)
    (h1 : 1 ≤ n) (h6 : n ≤ 6) (hd : firstText up = .ok (pyStr (n : Int))) :
    ∃ qs : List (Int × Int),
      drawDie scale up = .ok (qs.map fun q =>
        .ellipse q (scale k, scale k) (some ((attrText? t!"color" up).getD t!"black"))) ∧
      qs.length = n ∧
      (0 ≤ scale k → 4 * scale k ≤ s.1 → 4 * scale k ≤ s.2 →
        (∀ q ∈ qs, Within q (scale k, scale k) p s) ∧ qs.Pairwise (Apart (scale k, scale k))) := by
  obtain ⟨qs, hq, hl, hw⟩ := dots_lemma p s (scale k, scale k) n h1 h6
  refine ⟨qs, ?_, hl, fun a b c => hw a a b c⟩
  unfold drawDie
  simp only [bind, Except.bind, pure, Except.pure, hb, hst, hi, hk, hd, hq]
  rw [if_neg (by simp), if_pos trivial]

/-- The number on the cube: a power of two, or what the style says for a cube that was not turned. -/
theorem C66_cube (scale : Int → Int) (up : List Elem) (p s : Int × Int) (f : Text) (n : Nat)
    (hb : boxOf scale up = .ok (p, s)) (hi : attrTruthy t!"image" up = none)
    (hf : attrTruthy t!"font" up = some f) (hd : firstText up = .ok (decimal n)) :
    drawCube scale up = .ok [.text p s
      (if n = 0 then (attrText? t!"initialCube" up).getD t!"1" else decimal (2 ^ n)) f
      ((attrText? t!"color" up).getD t!"white")] := by
  have hn : firstInt up = .ok (n : Int) := by
    unfold firstInt
    rw [hd]
    simp only [pyInt_decimal]
  unfold drawCube
  simp only [bind, Except.bind, pure, Except.pure, hb, hi, hf, hn]
  by_cases h0 : n = 0
  · subst h0
    cases hc : attrText? t!"initialCube" up with
    | none => simp; rfl
    | some t => simp
  · have : ¬ (n : Int) = 0 := by omega
    simp [h0]

/-- An offered resignation is written out. -/
theorem C66_resign (scale : Int → Int) (up : List Elem) (p s : Int × Int) (f : Text) (n : Nat) (ox oy : Int)
    (hb : boxOf scale up = .ok (p, s)) (hx : attrInt t!"x_offset" up = .ok ox) (hy : attrInt t!"y_offset" up = .ok oy)
    (hi : attrTruthy t!"image" up = none) (hf : attrTruthy t!"font" up = some f)
    (h1 : 1 ≤ n) (h3 : n ≤ 3) (hd : firstText up = .ok (pyStr (n : Int))) :
    drawResign scale up = .ok [.text p s (resignWord n) f ((attrText? t!"color" up).getD t!"white")] := by
  have hn : firstInt up = .ok (n : Int) := by
    unfold firstInt
    rw [hd]
    simp only [pyInt_pyStr]
  unfold drawResign
  simp only [bind, Except.bind, pure, Except.pure, hb, hx, hy, hi, hf, hn]
  have : n = 1 ∨ n = 2 ∨ n = 3 := by omega
  rcases this with rfl | rfl | rfl <;> rfl

/-- With an image there is one chip for a single game, two for a gammon and three for a backgammon. -/
theorem C66_chips (scale : Int → Int) (up : List Elem) (p s : Int × Int) (i : Text) (n : Nat) (ox oy : Int)
    (hb : boxOf scale up = .ok (p, s)) (hx : attrInt t!"x_offset" up = .ok ox) (hy : attrInt t!"y_offset" up = .ok oy)
    (hi : attrTruthy t!"image" up = some i) (hd : firstText up = .ok (pyStr (n : Int))) :
    ∃ ops, drawResign scale up = .ok ops ∧ ops.length = n := by
  have hn : firstInt up = .ok (n : Int) := by
    unfold firstInt
    rw [hd]
    simp only [pyInt_pyStr]
  refine ⟨_, ?_, chips_length i s (scale ox, scale oy) n p⟩
  unfold drawResign
  simp only [bind, Except.bind, pure, Except.pure, hb, hx, hy, hi, hn]
  rfl

/-- A pile of `n` chequers, at most `m` of which are drawn: there are `min n m` discs, and the number is
written if and only if some chequers are left out, the style has a font and does not hide the number. -/
theorem C66_chequers (scale : Int → Int) (up : List Elem) (p s c : Int × Int) (n m : Nat)
    (hb : boxOf scale up = .ok (p, s)) (hi : attrTruthy t!"image" up = none)
    (hm : attrInt t!"max_count" up = .ok (m : Int)) (hc : cornerOf scale up = .ok c)
    (hd : firstText up = .ok (pyStr (n : Int))) :
    ∃ (qs : List (Int × Int)) (label : List Op),
      drawChequer scale up = .ok (qs.map (fun q => .ellipse q s (some ((attrText? t!"color" up).getD t!"white"))) ++ label) ∧
      qs.length = min n m ∧
      (label = [] ∨ ∃ q f, label = [.text q s (pyStr (n : Int)) f ((attrText? t!"color" up).getD t!"white")]) ∧
      (label ≠ [] ↔ m < n ∧ (attrText? t!"font" up).isSome = true ∧ attrFlag t!"hide_count" up ≠ .ok true) := by
  have hn : firstInt up = .ok (n : Int) := by
    unfold firstInt
    rw [hd]
    simp only [pyInt_pyStr]
  have hlab : ∀ q, (pileLabel up n m q s = [] ∨ ∃ q' f, pileLabel up n m q s =
        [.text q' s (pyStr (n : Int)) f ((attrText? t!"color" up).getD t!"white")]) ∧
      (pileLabel up n m q s ≠ [] ↔ m < n ∧ (attrText? t!"font" up).isSome = true ∧
        attrFlag t!"hide_count" up ≠ .ok true) := by
    intro q
    unfold pileLabel
    cases hf : attrText? t!"font" up with
    | none => simp
    | some f =>
      simp only [Option.isSome_some, true_and, ne_eq]
      by_cases hh : ¬ attrFlag t!"hide_count" up = .ok true ∧ (n : Int) > m
      · rw [if_pos hh]
        refine ⟨.inr ⟨q, f, rfl⟩, ?_⟩
        have : m < n := by omega
        simp [hh.1, this]
      · rw [if_neg hh]
        refine ⟨.inl rfl, ?_⟩
        simp only [not_true_eq_false, false_iff]
        intro ⟨h1, h2⟩
        exact hh ⟨h2, by omega⟩
  have hmin : (min (n : Int) m).toNat = min n m := by omega
  unfold drawChequer chequerMark
  simp only [bind, Except.bind, pure, Except.pure, hb, hi, hn, hm, hc, hmin]
  by_cases h0 : min n m = 0
  · rw [if_pos h0]
    exact ⟨[], _, rfl, by simp [h0], (hlab p).1, (hlab p).2⟩
  · rw [if_neg h0]
    exact ⟨_, _, rfl, places_length _ _ _, (hlab _).1, (hlab _).2⟩

/-- A point without an image is a triangle in its box, with the whole width as its base. -/
theorem C66_point (scale : Int → Int) (up : List Elem) (p s : Int × Int) (fl : Bool)
    (hb : boxOf scale up = .ok (p, s)) (hi : attrTruthy t!"image" up = none)
    (hc : attrText? t!"color" up ≠ some []) (hf : attrFlag t!"flip" up = .ok fl) (hw : 0 ≤ s.1) (hh : 0 ≤ s.2) :
    ∃ a b c fill, drawPoint scale up = .ok [.polygon [a, b, c] fill] ∧
      InBox a p s ∧ InBox b p s ∧ InBox c p s ∧ c.1 - a.1 = s.1 ∧ a.2 = c.2 ∧
      (fl = true → a.2 = p.2 ∧ b.2 = p.2 + s.2) ∧ (fl = false → b.2 = p.2 ∧ a.2 = p.2 + s.2) := by
  have hne : ¬ (attrText? t!"color" up).getD t!"white" = [] := by
    cases h : attrText? t!"color" up with
    | none => simp
    | some t => intro h'; simp at h'; exact hc (by rw [h, h'])
  obtain ⟨x, y⟩ := p
  obtain ⟨w, h⟩ := s
  unfold drawPoint
  simp only [bind, Except.bind, pure, Except.pure, hb, hi, hf]
  rw [if_neg hne]
  cases fl
  · exact ⟨_, _, _, _, rfl, by simp [InBox] at *; omega, by simp [InBox, half] at *; omega,
      by simp [InBox] at *; omega, by simp; omega, rfl, by simp, by simp⟩
  · exact ⟨_, _, _, _, rfl, by simp [InBox] at *; omega, by simp [InBox, half] at *; omega,
      by simp [InBox] at *; omega, by simp; omega, rfl, by simp, by simp⟩

/-- Scores, the length of the match and the action are written as they are; the Crawford sign is a star, drawn
only in the Crawford game. -/
theorem C66_label (scale : Int → Int) (up : List Elem) (p s : Int × Int) (f c t : Text)
    (hb : boxOf scale up = .ok (p, s)) (hi : attrTruthy t!"image" up = none)
    (hf : attrTruthy t!"font" up = some f) (hc : attrText? t!"color" up = some c) (hd : firstText up = .ok t) :
    drawLabel scale up = .ok [.text p s t f c] ∧
    drawCrawford scale up = .ok (if t = t!"True" then [.text p s t!"*" f c] else []) := by
  constructor
  · unfold drawLabel needColor
    simp only [bind, Except.bind, pure, Except.pure, hb, hi, hf, hd, hc]
  · unfold drawCrawford needColor
    simp only [bind, Except.bind, pure, Except.pure, hb, hi, hf, hd, hc]
    split <;> rfl

/-! A board, a field in it, and a die, a cube, a resignation, a pile and a label in the field. -/

def sampleBoard : Elem := ⟨.board, [(t!"x", .int 0), (t!"y", .int 0), (t!"width", .int 100), (t!"height", .int 100),
  (t!"font", .str t!"f"), (t!"color", .str t!"red")], []⟩

def sampleUp (n : EName) (attrs : List (Text × Value)) (d : Text) : List Elem :=
  [⟨n, [(t!"x", .int 10), (t!"y", .int 20), (t!"width", .int 16), (t!"height", .int 16), (t!"color", .str t!"blue")] ++
    attrs, [d]⟩, sampleBoard]

example : boxOf id (sampleUp .die [(t!"eyesize", .int 3)] t!"5") = .ok ((10, 20), (16, 16)) ∧
    attrTruthy t!"image" (sampleUp .die [(t!"eyesize", .int 3)] t!"5") = none ∧
    lookupAttr t!"diestyle" (sampleUp .die [(t!"eyesize", .int 3)] t!"5") = .ok (.str t!"dot") ∧
    attrInt t!"eyesize" (sampleUp .die [(t!"eyesize", .int 3)] t!"5") = .ok 3 ∧
    firstText (sampleUp .die [(t!"eyesize", .int 3)] t!"5") = .ok (pyStr ((5 : Nat) : Int)) := by decide

example : drawDie id (sampleUp .die [(t!"eyesize", .int 3)] t!"2") =
    .ok [.ellipse (21, 23) (3, 3) (some t!"blue"), .ellipse (13, 31) (3, 3) (some t!"blue")] := by decide

example : drawCube id (sampleUp .cube [] t!"3") = .ok [.text (10, 20) (16, 16) t!"8" t!"f" t!"blue"] := by decide

example : drawResign id (sampleUp .resign [] t!"2") = .ok [.text (10, 20) (16, 16) t!"gammon" t!"f" t!"blue"] := by decide

example : (drawChequer id (sampleUp .chequer [(t!"max_count", .int 2)] t!"3")).map (·.length) = .ok 3 ∧
    cornerOf id (sampleUp .chequer [(t!"max_count", .int 2)] t!"3") = .ok (100, 100) := by decide

example : drawPoint id (sampleUp .point [] t!"3") = .ok [.polygon [(10, 36), (18, 20), (26, 36)] (some t!"blue")] := by decide

example : drawLabel id (sampleUp .score [] t!"3") = .ok [.text (10, 20) (16, 16) t!"3" t!"f" t!"blue"] := by decide

end Bglib
