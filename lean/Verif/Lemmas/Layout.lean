import Verif.Spec.Layout
import Verif.Lemmas.Theme
/-
The picture drawn with a plain style.
-/
namespace Bglib
open Spec Img

/-! ### Attributes by their values -/

/-- An attribute, if there is one. -/
def getAttr (n : Text) (up : List Elem) : Option Value :=
  match lookupAttr n up with
  | .ok v => some v
  | .error _ => none

theorem int_of {n : Text} {up : List Elem} {i : Int} (h : getAttr n up = some (.int i)) : attrInt n up = .ok i := by
  unfold getAttr at h; unfold attrInt
  cases hl : lookupAttr n up with
  | error x => rw [hl] at h; simp at h
  | ok v => rw [hl] at h; simp only [Option.some.injEq] at h; subst h; rfl

theorem text_of {n : Text} {up : List Elem} {t : Text} (h : getAttr n up = some (.str t)) : attrText? n up = some t := by
  unfold getAttr at h; unfold attrText?
  cases hl : lookupAttr n up with
  | error x => rw [hl] at h; simp at h
  | ok v => rw [hl] at h; simp only [Option.some.injEq] at h; subst h; rfl

theorem text_none {n : Text} {up : List Elem} (h : getAttr n up = none) : attrText? n up = none := by
  unfold getAttr at h; unfold attrText?
  cases hl : lookupAttr n up with
  | error x => rfl
  | ok v => rw [hl] at h; simp at h

theorem flag_of {n : Text} {up : List Elem} {b : Bool} (h : getAttr n up = some (.bool b)) : attrFlag n up = .ok b := by
  unfold getAttr at h; unfold attrFlag
  cases hl : lookupAttr n up with
  | error x => rw [hl] at h; simp at h
  | ok v => rw [hl] at h; simp only [Option.some.injEq] at h; subst h; rfl

theorem has_of (n : Text) (up : List Elem) : hasAttr n up = (getAttr n up).isSome := by
  unfold getAttr hasAttr
  cases lookupAttr n up <;> rfl

theorem truthy_of {n : Text} {up : List Elem} {t : Text} (h : getAttr n up = some (.str t)) (ht : t ≠ []) :
    attrTruthy n up = some t := by
  unfold attrTruthy; rw [text_of h]; simp [ht]

theorem truthy_none {n : Text} {up : List Elem} (h : getAttr n up = none) : attrTruthy n up = none := by
  unfold attrTruthy; rw [text_none h]

theorem lookup_of {n : Text} {up : List Elem} {v : Value} (h : getAttr n up = some v) : lookupAttr n up = .ok v := by
  unfold getAttr at h
  cases hl : lookupAttr n up with
  | error x => rw [hl] at h; simp at h
  | ok w => rw [hl] at h; simp only [Option.some.injEq] at h; rw [h]

/-- The attributes have the given values. -/
def looks (up : List Elem) (l : List (Text × Option Value)) : Bool :=
  l.all fun x => decide (getAttr x.1 up = x.2)

def boxIs (x y w h : Int) : List (Text × Option Value) :=
  [(t!"x", some (.int x)), (t!"y", some (.int y)), (t!"width", some (.int w)), (t!"height", some (.int h))]

def strIs (t : Text) : Option Value := some (.str t)

theorem looks_cons (up : List Elem) (n : Text) (v : Option Value) (l : List (Text × Option Value)) :
    looks up ((n, v) :: l) = true ↔ getAttr n up = v ∧ looks up l = true := by
  unfold looks
  rw [List.all_cons, Bool.and_eq_true, decide_eq_true_eq]

theorem looks_append (up : List Elem) (l m : List (Text × Option Value)) :
    looks up (l ++ m) = true ↔ looks up l = true ∧ looks up m = true := by
  unfold looks
  rw [List.all_append, Bool.and_eq_true]

theorem box_is {up : List Elem} {x y w h : Int} (hb : looks up (boxIs x y w h) = true) (k : Ink) :
    boxOf k.scale up = .ok ((k.scale x, k.scale y), (k.scale w, k.scale h)) := by
  simp only [boxIs, looks_cons] at hb
  obtain ⟨h1, h2, h3, h4, -⟩ := hb
  unfold boxOf
  simp only [bind, Except.bind, pure, Except.pure, int_of h1, int_of h2, int_of h3, int_of h4]

theorem back_rect {up : List Elem} {x y w h : Int} {c : Text} (hb : looks up (boxIs x y w h) = true)
    (hc : getAttr t!"background" up = strIs c) (k : Ink) : backOps k.scale up = .ok [k.rect x y w h c] := by
  unfold backOps bgDraw
  rw [has_of, hc, text_of hc]
  simp only [strIs, Option.isSome_some, if_true, bind, Except.bind, pure, Except.pure, box_is hb]
  rfl

theorem back_none {up : List Elem} (hc : getAttr t!"background" up = none) (k : Ink) :
    backOps k.scale up = .ok [] := by
  unfold backOps
  rw [has_of, hc]
  rfl

theorem own_none {up : List Elem} (hi : getAttr t!"image" up = none) (hc : getAttr t!"color" up = none) (k : Ink) :
    ownOps k.scale up = .ok [] := by
  unfold ownOps
  rw [has_of, has_of, hi, hc]
  rfl

theorem own_color {up : List Elem} {c : Text} (hc : getAttr t!"color" up = strIs c) (k : Ink) :
    ownOps k.scale up = drawElem k.scale up := by
  unfold ownOps
  rw [has_of, has_of, hc]
  simp [strIs]

theorem element_of {up : List Elem} {k : Ink} {a b : List Op} (ha : backOps k.scale up = .ok a)
    (hb : ownOps k.scale up = .ok b) : drawElement k.scale up = .ok (a ++ b) := by
  unfold drawElement
  simp only [bind, Except.bind, pure, Except.pure, ha, hb]

/-! ### The kinds of elements -/

/-- A rectangle and nothing else. -/
def plainIs (x y w h : Int) (c : Text) : List (Text × Option Value) :=
  boxIs x y w h ++ [(t!"background", strIs c), (t!"image", none), (t!"color", none)]

theorem draw_plain {up : List Elem} {x y w h : Int} {c : Text} (hl : looks up (plainIs x y w h c) = true) (k : Ink) :
    drawElement k.scale up = .ok [k.rect x y w h c] := by
  simp only [plainIs, looks_append, looks_cons] at hl
  obtain ⟨hb, h1, h2, h3, -⟩ := hl
  exact element_of (back_rect hb h1 k) (own_none h2 h3 k)

/-- A text in a colour. -/
def inkIs (x y w h : Int) (font c : Text) : List (Text × Option Value) :=
  boxIs x y w h ++ [(t!"image", none), (t!"color", strIs c), (t!"font", strIs font)]

theorem draw_label {e : Elem} {up : List Elem} {x y w h : Int} {f c t : Text}
    (hl : looks (e :: up) (inkIs x y w h f c) = true) (hf : f ≠ [])
    (hn : e.name = .action ∨ e.name = .length ∨ e.name = .score) (hd : e.data = [t]) (k : Ink) :
    ownOps k.scale (e :: up) = .ok [k.text x y w h t f c] := by
  simp only [inkIs, looks_append, looks_cons] at hl
  obtain ⟨hb, h1, h2, h3, -⟩ := hl
  rw [own_color h2]
  have : drawElem k.scale (e :: up) = drawLabel k.scale (e :: up) := by
    unfold drawElem; dsimp only
    rcases hn with h | h | h <;> rw [h]
  rw [this]
  unfold drawLabel needColor
  simp only [bind, Except.bind, pure, Except.pure, box_is hb, truthy_none h1, truthy_of h3 hf, firstText_of hd, text_of h2]
  rfl

theorem draw_crawford {e : Elem} {up : List Elem} {x y w h : Int} {f c : Text} {b : Bool}
    (hl : looks (e :: up) (inkIs x y w h f c) = true) (hf : f ≠ [])
    (hn : e.name = .crawford) (hd : e.data = [if b = true then t!"True" else t!"False"]) (k : Ink) :
    ownOps k.scale (e :: up) = .ok (if b = true then [k.text x y w h t!"*" f c] else []) := by
  simp only [inkIs, looks_append, looks_cons] at hl
  obtain ⟨hb, h1, h2, h3, -⟩ := hl
  rw [own_color h2]
  have : drawElem k.scale (e :: up) = drawCrawford k.scale (e :: up) := by
    unfold drawElem; dsimp only
    rw [hn]
  rw [this]
  unfold drawCrawford needColor
  simp only [bind, Except.bind, pure, Except.pure, box_is hb, truthy_none h1, truthy_of h3 hf, firstText_of hd, text_of h2]
  cases b
  · rw [if_neg (by decide), if_neg (by decide)]
  · rw [if_pos rfl, if_pos rfl, if_pos rfl]; rfl

theorem draw_field {e : Elem} {up : List Elem} {x y w h : Int} {f c t : Text}
    (hl : looks (e :: up) (inkIs x y w h f c ++ [(t!"text", strIs t)]) = true) (hf : f ≠ []) (ht : t ≠ [])
    (hn : e.name = .field) (k : Ink) :
    ownOps k.scale (e :: up) = .ok [k.text x y w h t f c] := by
  simp only [inkIs, looks_append, looks_cons] at hl
  obtain ⟨⟨hb, h1, h2, h3, -⟩, h4, -⟩ := hl
  rw [own_color h2]
  have : drawElem k.scale (e :: up) = drawField k.scale (e :: up) := by
    unfold drawElem; dsimp only
    rw [hn]
  rw [this]
  unfold drawField
  simp only [bind, Except.bind, pure, Except.pure, box_is hb, truthy_none h1, truthy_of h3 hf, truthy_of h4 ht, text_of h2]
  rfl

def dieIs (x y : Int) (bg c : Text) : List (Text × Option Value) :=
  boxIs x y 16 16 ++ [(t!"background", strIs bg), (t!"image", none), (t!"color", strIs c),
    (t!"diestyle", strIs t!"dot"), (t!"eyesize", some (.int 3))]

theorem dots_eyes (p s d : Int × Int) (n : Int) (h1 : 1 ≤ n) (h6 : n ≤ 6) :
    dots p s d (pyStr n) = .ok ((eyes n).map fun e =>
      (p.1 + s.1 * e.1 / 4 - d.1 / 2, p.2 + s.2 * e.2 / 4 - d.2 / 2)) := by
  have hc : dotCenter p s d = (p.1 + s.1 * 2 / 4 - d.1 / 2, p.2 + s.2 * 2 / 4 - d.2 / 2) := by
    unfold dotCenter half
    rw [show s.1 * 2 / 4 = s.1 / 2 by omega, show s.2 * 2 / 4 = s.2 / 2 by omega]
  have : n = 1 ∨ n = 2 ∨ n = 3 ∨ n = 4 ∨ n = 5 ∨ n = 6 := by omega
  unfold dots
  dsimp only
  rw [hc]
  rcases this with rfl | rfl | rfl | rfl | rfl | rfl <;> rfl

theorem draw_die {e : Elem} {up : List Elem} {x y : Int} {bg c : Text} {n : Int}
    (hl : looks (e :: up) (dieIs x y bg c) = true) (hn : e.name = .die) (hd : e.data = [pyStr n])
    (h1 : 1 ≤ n) (h6 : n ≤ 6) (k : Ink) :
    drawElement k.scale (e :: up) = .ok (k.die x y bg c n) := by
  simp only [dieIs, looks_append, looks_cons] at hl
  obtain ⟨hb, hg, hi, hc, hs, he, -⟩ := hl
  have hown : ownOps k.scale (e :: up) = .ok ((eyes n).map fun e =>
      Op.ellipse (k.scale x + k.scale 16 * e.1 / 4 - k.scale 3 / 2, k.scale y + k.scale 16 * e.2 / 4 - k.scale 3 / 2)
        (k.scale 3, k.scale 3) (some c)) := by
    rw [own_color hc]
    have : drawElem k.scale (e :: up) = drawDie k.scale (e :: up) := by
      unfold drawElem; dsimp only
      rw [hn]
    rw [this]
    unfold drawDie
    simp only [bind, Except.bind, pure, Except.pure, box_is hb, truthy_none hi, lookup_of hs, int_of he, text_of hc,
      firstText_of hd, dots_eyes _ _ _ n h1 h6]
    rw [if_neg (by simp), if_pos trivial]
    simp only [List.map_map]
    rfl
  exact element_of (back_rect hb hg k) hown

def cubeIs (x y : Int) (bg f c : Text) : List (Text × Option Value) :=
  inkIs x y 25 25 f c ++ [(t!"background", strIs bg), (t!"initialCube", strIs t!"64")]

theorem draw_cube {e : Elem} {up : List Elem} {x y : Int} {pal : Palette} {n : Nat}
    (hl : looks (e :: up) (cubeIs x y pal.cube pal.font pal.cubeInk) = true) (hf : pal.font ≠ [])
    (hn : e.name = .cube) (hd : e.data = [decimal n]) (k : Ink) :
    drawElement k.scale (e :: up) = .ok (k.cube pal x y n) := by
  simp only [cubeIs, inkIs, looks_append, looks_cons] at hl
  obtain ⟨⟨hb, hi, hc, h3, -⟩, hg, h4, -⟩ := hl
  have hown : ownOps k.scale (e :: up) =
      .ok [k.text x y 25 25 (if n = 0 then t!"64" else decimal (2 ^ n)) pal.font pal.cubeInk] := by
    rw [own_color hc]
    have : drawElem k.scale (e :: up) = drawCube k.scale (e :: up) := by
      unfold drawElem; dsimp only
      rw [hn]
    rw [this]
    have hint : firstInt (e :: up) = .ok (n : Int) := firstInt_of (by rw [hd, pyStr_nat])
    unfold drawCube
    simp only [bind, Except.bind, pure, Except.pure, box_is hb, truthy_none hi, truthy_of h3 hf, text_of hc, text_of h4, hint]
    by_cases h0 : n = 0
    · subst h0; rfl
    · have : ¬ (n : Int) = 0 := by omega
      simp only [this, if_false, h0, Int.toNat_natCast]
      rfl
  exact element_of (back_rect hb hg k) hown

def resignIs (x : Int) (f c : Text) : List (Text × Option Value) :=
  inkIs x 93 100 46 f c ++ [(t!"background", none), (t!"x_offset", some (.int 0)), (t!"y_offset", some (.int 0))]

theorem draw_resign {e : Elem} {up : List Elem} {x : Int} {f c : Text} {n : Int}
    (hl : looks (e :: up) (resignIs x f c) = true) (hf : f ≠ [])
    (hn : e.name = .resign) (hd : e.data = [pyStr n]) (h1 : 1 ≤ n) (h3 : n ≤ 3) (k : Ink) :
    drawElement k.scale (e :: up) = .ok [k.text x 93 100 46 (resignWord n.toNat) f c] := by
  simp only [resignIs, inkIs, looks_append, looks_cons] at hl
  obtain ⟨⟨hb, hi, hc, hfo, -⟩, hg, hx, hy, -⟩ := hl
  have hown : ownOps k.scale (e :: up) = .ok [k.text x 93 100 46 (resignWord n.toNat) f c] := by
    rw [own_color hc]
    have : drawElem k.scale (e :: up) = drawResign k.scale (e :: up) := by
      unfold drawElem; dsimp only
      rw [hn]
    rw [this]
    unfold drawResign
    simp only [bind, Except.bind, pure, Except.pure, box_is hb, truthy_none hi, truthy_of hfo hf, text_of hc, int_of hx,
      int_of hy, firstInt_of hd]
    have : n = 1 ∨ n = 2 ∨ n = 3 := by omega
    rcases this with rfl | rfl | rfl <;> rfl
  exact element_of (back_none hg k) hown

def chequerIs (x y dy max : Int) (f c : Text) : List (Text × Option Value) :=
  inkIs x y 16 16 f c ++ [(t!"background", none), (t!"x_offset", some (.int 0)), (t!"y_offset", some (.int dy)),
    (t!"x_offset2", some (.int 0)), (t!"y_offset2", some (.int 0)), (t!"max_count", some (.int max)),
    (t!"hide_count", some (.bool false))]

theorem places_line (l : Pile) (h1 : l.off.1 = 0) (h2 : l.off2 = (0, 0)) (n : Nat) (p : Int × Int) :
    l.places n p = ((List.range n).map (fun (j : Nat) => (p.1, p.2 + j * l.off.2)), (p.1, p.2 + n * l.off.2)) := by
  have hnext : ∀ p, l.next p = (p.1, p.2 + l.off.2) := by
    intro p
    unfold Pile.next
    dsimp only
    rw [h1, h2]
    split <;> simp
  induction n generalizing p with
  | zero => simp [Pile.places]
  | succ n ih =>
    rw [Pile.places, hnext, ih]
    rw [List.range_succ_eq_map, List.map_cons, List.map_map]
    refine Prod.ext ?_ ?_
    · dsimp only
      refine List.cons_eq_cons.2 ⟨by simp, ?_⟩
      apply List.map_congr_left
      intro j _
      simp only [Function.comp_apply, Nat.succ_eq_add_one, Int.natCast_add, Int.add_mul, Int.natCast_one]
      refine Prod.ext rfl ?_
      dsimp only
      omega
    · refine Prod.ext rfl ?_
      simp only [Int.natCast_add, Int.add_mul, Int.natCast_one]
      omega

theorem draw_chequer {e : Elem} {up : List Elem} {x y dy max : Int} {f c : Text} {n : Int}
    (hl : looks (e :: up) (chequerIs x y dy max f c) = true) (hcr : cornerReady (e :: up) = true)
    (hn : e.name = .chequer) (hd : e.data = [pyStr n]) (hm : 0 ≤ max) (k : Ink) (hz : k.scale 0 = 0) :
    drawElement k.scale (e :: up) = .ok (k.pile x y dy max f c n) := by
  simp only [chequerIs, inkIs, looks_append, looks_cons] at hl
  obtain ⟨⟨hb, hi, hc, hfo, -⟩, hg, hx, hy, hx2, hy2, hmx, hh, -⟩ := hl
  have hown : ownOps k.scale (e :: up) = .ok (k.pile x y dy max f c n) := by
    rw [own_color hc]
    have : drawElem k.scale (e :: up) = drawChequer k.scale (e :: up) := by
      unfold drawElem; dsimp only
      rw [hn]
    rw [this]
    obtain ⟨co, hco⟩ := corner_ok k.scale _ hcr
    have hp := places_line (pileOf k.scale (e :: up) (k.scale 16, k.scale 16) co)
      (by simp [pileOf, attrIntOr0, int_of hx, hz]) (by simp [pileOf, attrIntOr0, int_of hx2, int_of hy2, hz])
    have hoff : (pileOf k.scale (e :: up) (k.scale 16, k.scale 16) co).off.2 = k.scale dy := by
      simp [pileOf, attrIntOr0, int_of hy]
    rw [hoff] at hp
    have hlab : ∀ q, pileLabel (e :: up) n max q (k.scale 16, k.scale 16) =
        if n > max then [Op.text q (k.scale 16, k.scale 16) (pyStr n) f c] else [] := by
      intro q
      unfold pileLabel
      simp only [text_of hfo, flag_of hh, text_of hc, Option.getD_some]
      by_cases h : n > max
      · rw [if_pos ⟨by simp, h⟩, if_pos h]
      · rw [if_neg (fun h' => h h'.2), if_neg h]
    unfold drawChequer chequerMark
    simp only [bind, Except.bind, pure, Except.pure, box_is hb, truthy_none hi, text_of hc, int_of hmx, firstInt_of hd,
      hco, hp, hlab]
    unfold Ink.pile
    by_cases h0 : (min n max).toNat = 0
    · rw [if_pos h0, h0]
      by_cases h : n > max
      · have : max = 0 := by omega
        subst this
        simp [h]
      · rw [if_neg h, if_neg h]; rfl
    · rw [if_neg h0]
      simp only [List.map_map]
      congr 2
      by_cases h : n > max
      · rw [if_pos h, if_pos h]
        have : (((min n max).toNat : Nat) : Int) = max := by omega
        rw [this]
      · rw [if_neg h, if_neg h]
  have := element_of (back_none hg k) hown
  rwa [List.nil_append] at this

def pointIs (x y : Int) (flip : Bool) (c : Text) : List (Text × Option Value) :=
  boxIs x y 18 88 ++ [(t!"background", none), (t!"image", none), (t!"color", strIs c), (t!"flip", some (.bool flip)),
    (t!"fill", none)]

theorem draw_point {e : Elem} {up : List Elem} {i : Nat} {c : Text}
    (hl : looks (e :: up) (pointIs (column i) (if i ≤ 12 then 139 else 5) (decide (12 < i)) c) = true)
    (hn : e.name = .point) (hne : c ≠ []) (k : Ink) :
    drawElement k.scale (e :: up) = .ok [k.triangle i c] := by
  simp only [pointIs, looks_append, looks_cons] at hl
  obtain ⟨hb, hg, hi, hc, hfl, hfi, -⟩ := hl
  have hown : ownOps k.scale (e :: up) = .ok [k.triangle i c] := by
    rw [own_color hc]
    have : drawElem k.scale (e :: up) = drawPoint k.scale (e :: up) := by
      unfold drawElem; dsimp only
      rw [hn]
    rw [this]
    have hfill : ∃ x, attrFlag t!"fill" (e :: up) = .error x := by
      unfold getAttr at hfi
      unfold attrFlag
      cases hl : lookupAttr t!"fill" (e :: up) with
      | error x => exact ⟨x, rfl⟩
      | ok v => rw [hl] at hfi; simp at hfi
    obtain ⟨er, hfill⟩ := hfill
    unfold drawPoint
    simp only [bind, Except.bind, pure, Except.pure, box_is hb, truthy_none hi, text_of hc, flag_of hfl, hfill,
      Option.getD_some]
    rw [if_neg hne]
    unfold Ink.triangle half
    by_cases h : i ≤ 12
    · have : ¬ 12 < i := by omega
      simp [h, this]
    · have : 12 < i := by omega
      simp [h, this]
  exact element_of (back_none hg k) hown

/-! ### Styled trees and what they draw -/

/-- A part of the picture, styled, draws these operations. -/
def Draws (rules : List Rule) (k : Ink) (anc : List Elem) (t : Tree) (ops : List Op) : Prop :=
  ∃ t', t.styled rules anc = .ok t' ∧ t'.drawn k.scale anc.reverse = .ok ops

def KidsDraw (rules : List Rule) (k : Ink) (anc : List Elem) (ts : List Tree) (ops : List Op) : Prop :=
  ∃ ts', styledAll rules anc ts = .ok ts' ∧ drawnAll k.scale anc.reverse ts' = .ok ops

variable {rules : List Rule} {k : Ink} {anc : List Elem}

theorem kids_nil : KidsDraw rules k anc [] [] := ⟨[], rfl, rfl⟩

theorem kids_cons {t : Tree} {ts : List Tree} {a b : List Op} (h1 : Draws rules k anc t a)
    (h2 : KidsDraw rules k anc ts b) : KidsDraw rules k anc (t :: ts) (a ++ b) := by
  obtain ⟨t', s1, d1⟩ := h1
  obtain ⟨ts', s2, d2⟩ := h2
  exact ⟨t' :: ts', by simp only [styledAll, s1, s2], by simp only [drawnAll, d1, d2]⟩

theorem kids_append {ts us : List Tree} {a b : List Op} (h1 : KidsDraw rules k anc ts a)
    (h2 : KidsDraw rules k anc us b) : KidsDraw rules k anc (ts ++ us) (a ++ b) := by
  induction ts generalizing a with
  | nil =>
    obtain ⟨ts', s1, d1⟩ := h1
    simp only [styledAll, Except.ok.injEq] at s1
    subst s1
    simp only [drawnAll, Except.ok.injEq] at d1
    subst d1
    exact h2
  | cons t ts ih =>
    obtain ⟨l, s1, d1⟩ := h1
    obtain ⟨t', ts', s2, s3, rfl⟩ := styledAll_inv s1
    obtain ⟨a1, a2, d2, d3, rfl⟩ := drawnAll_inv d1
    rw [List.append_assoc, List.cons_append]
    exact kids_cons ⟨t', s2, d2⟩ (ih ⟨ts', s3, d3⟩)

theorem kids_one {t : Tree} {a : List Op} (h1 : Draws rules k anc t a) : KidsDraw rules k anc [t] a := by
  have := kids_cons h1 kids_nil
  rwa [List.append_nil] at this

theorem kids_map {α : Type} (l : List α) (f : α → Tree) (g : α → List Op)
    (h : ∀ x ∈ l, Draws rules k anc (f x) (g x)) : KidsDraw rules k anc (l.map f) (l.flatMap g) := by
  induction l with
  | nil => exact kids_nil
  | cons x l ih =>
    rw [List.map_cons, List.flatMap_cons]
    exact kids_cons (h x List.mem_cons_self) (ih fun y hy => h y (List.mem_cons_of_mem _ hy))

theorem node_draws {e e' : Elem} {kids : List Tree} {a b : List Op} (hr : applyRules anc e rules = .ok e')
    (ha : drawElement k.scale (e' :: anc.reverse) = .ok a) (hk : KidsDraw rules k (anc ++ [e']) kids b) :
    Draws rules k anc (.node e kids) (a ++ b) := by
  obtain ⟨ks, h1, h2⟩ := hk
  rw [List.reverse_append, List.reverse_singleton, List.singleton_append] at h2
  exact ⟨.node e' ks, by simp only [Tree.styled, hr, h1], by simp only [Tree.drawn, ha, h2]⟩

/-! ### Checking a style -/

/-- Elements of a kind look like this, whatever their text is. -/
def leafLooks (rules : List Rule) (n : EName) (attrs : List (Text × Value)) (l : List (Text × Option Value))
    (anc : List Elem) : Bool :=
  let rs := rules.filter (concerns n)
  decide (rs.flatMap (mentioned n) = []) &&
  match applyRules anc ⟨n, attrs, [[]]⟩ rs with
  | .ok e => looks (e :: anc.reverse) l
  | .error _ => false

theorem leaf_looks {n : EName} {attrs : List (Text × Value)} {l : List (Text × Option Value)}
    (h : leafLooks rules n attrs l anc = true) (x : Text) :
    ∃ e, applyRules anc ⟨n, attrs, [x]⟩ rules = .ok e ∧ e.name = n ∧ e.data = [x] ∧
      looks (e :: anc.reverse) l = true := by
  unfold leafLooks at h
  simp only [Bool.and_eq_true, decide_eq_true_eq] at h
  obtain ⟨h0, h⟩ := h
  cases hr : applyRules anc ⟨n, attrs, [[]]⟩ (rules.filter (concerns n)) with
  | error x => rw [hr] at h; simp at h
  | ok e =>
    rw [hr] at h
    have hh := rules_data (rules.filter (concerns n)) anc ⟨n, attrs, [[]]⟩ [x] (by
      intro r hr s hs he t ht
      have hm : t ∈ (rules.filter (concerns n)).flatMap (mentioned n) := by
        rw [List.mem_flatMap]
        refine ⟨r, hr, ?_⟩
        unfold mentioned
        rw [List.mem_filterMap]
        exact ⟨s, hs, by rw [if_pos he, ht]⟩
      rw [h0] at hm
      simp at hm)
    rw [hr] at hh
    have hh' : applyRules anc ⟨n, attrs, [x]⟩ rules = .ok (withData [x] e) := by
      rw [← rules_filter rules anc _ n rfl]
      exact hh
    exact ⟨withData [x] e, hh', (rules_keep hr).1, rfl, h⟩

/-- An element looks like this, and what comes below it. -/
def innerLooks (rules : List Rule) (e : Elem) (l : List (Text × Option Value)) (f : List Elem → Bool)
    (anc : List Elem) : Bool :=
  match applyRules anc e (rules.filter (concerns e.name)) with
  | .ok e' => looks (e' :: anc.reverse) l && f (anc ++ [e'])
  | .error _ => false

theorem inner_looks {e : Elem} {l : List (Text × Option Value)} {f : List Elem → Bool}
    (h : innerLooks rules e l f anc = true) :
    ∃ e', applyRules anc e rules = .ok e' ∧ e'.name = e.name ∧ looks (e' :: anc.reverse) l = true ∧
      f (anc ++ [e']) = true := by
  unfold innerLooks at h
  cases hr : applyRules anc e (rules.filter (concerns e.name)) with
  | error x => rw [hr] at h; simp at h
  | ok e' =>
    rw [hr] at h
    simp only [Bool.and_eq_true] at h
    rw [rules_filter _ _ _ _ rfl] at hr
    exact ⟨e', hr, (rules_keep hr).1, h.1, h.2⟩

/-- The check of a chequer: how it looks, and the box of its place. -/
def chequerLooks (rules : List Rule) (p : Int) (x y dy max : Int) (f c : Text) (anc : List Elem) : Bool :=
  boxReady anc.reverse && leafLooks rules .chequer (playerAttr p) (chequerIs x y dy max f c) anc

def cubeLooks (rules : List Rule) (pal : Palette) (x y : Int) (anc : List Elem) : Bool :=
  leafLooks rules .cube [] (cubeIs x y pal.cube pal.font pal.cubeInk) anc

def fieldLooks (rules : List Rule) (pal : Palette) (p : Int) (anc : List Elem) : Bool :=
  leafLooks rules .die [(t!"id", .str t!"right")] (dieIs (if p = 0 then 204 else 71) 95 (ofSide p pal.die) (ofSide p pal.dieInk)) anc &&
  leafLooks rules .die [(t!"id", .str t!"left")] (dieIs (if p = 0 then 176 else 43) 95 (ofSide p pal.die) (ofSide p pal.dieInk)) anc &&
  cubeLooks rules pal (if p = 0 then 50 else 180) 100 anc &&
  leafLooks rules .resign [] (resignIs (if p = 0 then 157 else 25) pal.font pal.resignInk) anc

def matchLooks (rules : List Rule) (pal : Palette) (anc : List Elem) : Bool :=
  leafLooks rules .action (playerAttr YOU)
    (inkIs 0 232 341 30 pal.font pal.actionInk.1 ++ [(t!"background", strIs pal.action)]) anc &&
  leafLooks rules .action (playerAttr HIM)
    (inkIs 0 232 341 30 pal.font pal.actionInk.2 ++ [(t!"background", strIs pal.action)]) anc &&
  leafLooks rules .length [] (inkIs 316 93 25 46 pal.font pal.lengthInk ++ [(t!"background", none)]) anc &&
  leafLooks rules .crawford [] (inkIs 291 93 25 46 pal.font pal.crawfordInk ++ [(t!"background", none)]) anc &&
  leafLooks rules .score (playerAttr YOU) (inkIs 291 139 50 93 pal.font pal.scoreInk.1 ++ [(t!"background", none)]) anc &&
  leafLooks rules .score (playerAttr HIM) (inkIs 291 0 50 93 pal.font pal.scoreInk.2 ++ [(t!"background", none)]) anc

def fieldBack (pal : Palette) (p : Int) : List (Text × Option Value) :=
  inkIs (if p = 0 then 158 else 25) 93 108 46 pal.font pal.fieldInk ++ [(t!"text", strIs t!"Backgammonbase")] ++
    [(t!"background", none)]

def pointLooks (rules : List Rule) (pal : Palette) (i : Nat) (anc : List Elem) : Bool :=
  innerLooks rules (newPoint i).elem
    (pointIs (column i) (if i ≤ 12 then 139 else 5) (decide (12 < i)) (if i % 2 = 1 then pal.odd else pal.even))
    (fun a =>
      if i ≤ 12 then chequerLooks rules YOU (column i) 210 (-18) 5 pal.font pal.chequer.1 a &&
        chequerLooks rules HIM (column i) 210 (-18) 5 pal.font pal.chequer.2 a
      else chequerLooks rules YOU (column i) 6 18 5 pal.font pal.chequer.1 a &&
        chequerLooks rules HIM (column i) 6 18 5 pal.font pal.chequer.2 a) anc

def positionLooks (rules : List Rule) (pal : Palette) (anc : List Elem) : Bool :=
  innerLooks rules ⟨.topFrame, [], []⟩ (plainIs 0 0 291 5 pal.frame) (fun _ => true) anc &&
  innerLooks rules ⟨.bottomFrame, [], []⟩ (plainIs 0 227 291 5 pal.frame) (fun _ => true) anc &&
  innerLooks rules ⟨.cubeholder, [], []⟩ (plainIs 0 5 25 224 pal.holder) (cubeLooks rules pal 0 105) anc &&
  innerLooks rules ⟨.field, playerAttr YOU, []⟩ (fieldBack pal YOU) (fieldLooks rules pal YOU) anc &&
  innerLooks rules ⟨.field, playerAttr HIM, []⟩ (fieldBack pal HIM) (fieldLooks rules pal HIM) anc &&
  innerLooks rules ⟨.home, playerAttr YOU, []⟩ (plainIs 266 116 25 112 pal.home)
    (fun a => chequerLooks rules YOU 269 125 18 5 pal.font pal.chequer.1 a && cubeLooks rules pal 0 197 a) anc &&
  innerLooks rules ⟨.home, playerAttr HIM, []⟩ (plainIs 266 5 25 112 pal.home)
    (fun a => chequerLooks rules HIM 269 90 (-18) 5 pal.font pal.chequer.2 a && cubeLooks rules pal 0 5 a) anc &&
  innerLooks rules ⟨.bar, playerAttr YOU, []⟩ (plainIs 133 116 25 112 pal.bar)
    (chequerLooks rules YOU 137 135 18 4 pal.font pal.chequer.1) anc &&
  innerLooks rules ⟨.bar, playerAttr HIM, []⟩ (plainIs 133 5 25 112 pal.bar)
    (chequerLooks rules HIM 137 80 (-18) 4 pal.font pal.chequer.2) anc &&
  (List.range 24).all fun i => pointLooks rules pal (i + 1) anc

/-- The style is a plain one, with this palette. -/
def plainLooks (rules : List Rule) (pal : Palette) : Bool :=
  decide (pal.font ≠ [] ∧ pal.odd ≠ [] ∧ pal.even ≠ []) &&
  innerLooks rules ⟨.board, [], []⟩ (plainIs 0 0 341 262 pal.board) (fun a =>
    innerLooks rules ⟨.match, [], []⟩ (plainIs 291 0 50 232 pal.sheet) (matchLooks rules pal) a &&
    innerLooks rules ⟨.position, [], []⟩ (plainIs 0 0 291 232 pal.position) (positionLooks rules pal) a) []

end Bglib
