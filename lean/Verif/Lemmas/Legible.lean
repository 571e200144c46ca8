import Verif.Spec.Layout
import Verif.Lemmas.Text
/-
A picture drawn with a plain style can be read back.
-/
namespace Bglib
open Spec Img

/-- The head of a list, if there is one, is not of a kind. -/
def StopsAt (P : Op → Bool) (l : List Op) : Prop := ∀ x ∈ l.head?, P x = false

theorem cut_unique {P : Op → Bool} {a a' r r' : List Op} (h : a ++ r = a' ++ r') (ha : ∀ x ∈ a, P x = true)
    (ha' : ∀ x ∈ a', P x = true) (hr : StopsAt P r) (hr' : StopsAt P r') : a = a' ∧ r = r' := by
  induction a generalizing a' with
  | nil =>
    cases a' with
    | nil => exact ⟨rfl, h⟩
    | cons x a' =>
      rw [List.nil_append] at h
      have h1 := ha' x List.mem_cons_self
      have h2 := hr x (by rw [h]; simp)
      rw [h1] at h2
      simp at h2
  | cons x a ih =>
    cases a' with
    | nil =>
      rw [List.nil_append] at h
      have h1 := ha x List.mem_cons_self
      have h2 := hr' x (by rw [← h]; simp)
      rw [h1] at h2
      simp at h2
    | cons y a' =>
      rw [List.cons_append, List.cons_append, List.cons.injEq] at h
      obtain ⟨rfl, h⟩ := h
      obtain ⟨h1, h2⟩ := ih h (fun z hz => ha z (List.mem_cons_of_mem _ hz)) fun z hz => ha' z (List.mem_cons_of_mem _ hz)
      exact ⟨by rw [h1], h2⟩

/-- Chequers of a colour. -/
def ofColour (c : Text) : Op → Bool
  | .ellipse _ _ f => decide (f = some c)
  | .text _ _ _ _ f => decide (f = c)
  | _ => false

variable {k : Ink} {pal : Palette}

theorem pile_colour (x y dy max : Int) (f c : Text) (n : Int) :
    ∀ o ∈ k.pile x y dy max f c n, ofColour c o = true := by
  intro o ho
  unfold Ink.pile at ho
  rw [List.mem_append, List.mem_map] at ho
  rcases ho with ⟨j, -, rfl⟩ | ho
  · simp [ofColour]
  · split at ho
    · rw [List.mem_singleton] at ho; subst ho; simp [ofColour]
    · simp at ho

theorem pile_inj {x y dy max : Int} {f c : Text} {n m : Int} (hn : 0 ≤ n) (hm : 0 ≤ m) (hx : 0 ≤ max)
    (h : k.pile x y dy max f c n = k.pile x y dy max f c m) : n = m := by
  have hl := congrArg List.length h
  unfold Ink.pile at hl h
  simp only [List.length_append, List.length_map, List.length_range] at hl
  by_cases h1 : n > max
  · by_cases h2 : m > max
    · rw [if_pos h1, if_pos h2, show min n max = max by omega, show min m max = max by omega] at h
      have := List.append_cancel_left h
      simp only [List.cons.injEq, Op.text.injEq, and_true, true_and] at this
      exact pyStr_inj this
    · rw [if_pos h1, if_neg h2] at hl
      simp only [List.length_cons, List.length_nil] at hl
      omega
  · by_cases h2 : m > max
    · rw [if_neg h1, if_pos h2] at hl
      simp only [List.length_cons, List.length_nil] at hl
      omega
    · rw [if_neg h1, if_neg h2] at hl
      simp only [List.length_nil] at hl
      omega

theorem pile_cut {x y dy max : Int} {f c : Text} {n m : Int} {r r' : List Op} (hn : 0 ≤ n) (hm : 0 ≤ m) (hx : 0 ≤ max)
    (h : k.pile x y dy max f c n ++ r = k.pile x y dy max f c m ++ r') (hr : StopsAt (ofColour c) r)
    (hr' : StopsAt (ofColour c) r') : n = m ∧ r = r' := by
  obtain ⟨h1, h2⟩ := cut_unique h (pile_colour x y dy max f c n) (pile_colour x y dy max f c m) hr hr'
  exact ⟨pile_inj hn hm hx h1, h2⟩

theorem stops_cons {P : Op → Bool} {x : Op} {l : List Op} (h : P x = false) : StopsAt P (x :: l) := by
  intro y hy
  simp only [List.head?_cons, Option.mem_def, Option.some.injEq] at hy
  rw [← hy]; exact h

/-- Another colour, and what comes next. -/
theorem stops_pile {c d f : Text} (hcd : d ≠ c) {x y dy max : Int} {n : Int} {r : List Op} (hr : StopsAt (ofColour c) r) :
    StopsAt (ofColour c) (k.pile x y dy max f d n ++ r) := by
  cases hp : k.pile x y dy max f d n with
  | nil => exact hr
  | cons o l =>
    rw [List.cons_append]
    apply stops_cons
    have := pile_colour (k := k) x y dy max f d n o (by rw [hp]; exact List.mem_cons_self)
    cases o <;> simp_all [ofColour]

/-- The chequers of a point. -/
theorem point_cut {i : Nat} {u v u' v' : Int} {r r' : List Op} (hc : pal.chequer.1 ≠ pal.chequer.2)
    (hu : 0 ≤ u) (hv : 0 ≤ v) (hu' : 0 ≤ u') (hv' : 0 ≤ v') (hr : ∀ c, StopsAt (ofColour c) r)
    (hr' : ∀ c, StopsAt (ofColour c) r') (h : k.point pal i u v ++ r = k.point pal i u' v' ++ r') :
    u = u' ∧ v = v' ∧ r = r' := by
  unfold Ink.point at h
  simp only [List.cons_append, List.cons.injEq, true_and] at h
  by_cases hi : i ≤ 12
  · simp only [hi, if_true, List.append_assoc] at h
    obtain ⟨h1, h2⟩ := pile_cut hu hu' (by omega) h (stops_pile hc.symm (hr _)) (stops_pile hc.symm (hr' _))
    obtain ⟨h3, h4⟩ := pile_cut hv hv' (by omega) h2 (hr _) (hr' _)
    exact ⟨h1, h3, h4⟩
  · simp only [hi, if_false, List.append_assoc] at h
    obtain ⟨h1, h2⟩ := pile_cut hv hv' (by omega) h (stops_pile hc (hr _)) (stops_pile hc (hr' _))
    obtain ⟨h3, h4⟩ := pile_cut hu hu' (by omega) h2 (hr _) (hr' _)
    exact ⟨h3, h1, h4⟩

theorem point_stops {i : Nat} {u v : Int} {r : List Op} (c : Text) : StopsAt (ofColour c) (k.point pal i u v ++ r) := by
  unfold Ink.point Ink.triangle
  dsimp only
  split <;> exact stops_cons rfl

theorem points_cut {l : List Nat} {f g f' g' : Nat → Int} {r r' : List Op} (hc : pal.chequer.1 ≠ pal.chequer.2)
    (hf : ∀ i, 0 ≤ f i) (hg : ∀ i, 0 ≤ g i) (hf' : ∀ i, 0 ≤ f' i) (hg' : ∀ i, 0 ≤ g' i)
    (hr : ∀ c, StopsAt (ofColour c) r) (hr' : ∀ c, StopsAt (ofColour c) r')
    (h : l.flatMap (fun i => k.point pal (i + 1) (f i) (g i)) ++ r =
      l.flatMap (fun i => k.point pal (i + 1) (f' i) (g' i)) ++ r') :
    (∀ i ∈ l, f i = f' i ∧ g i = g' i) ∧ r = r' := by
  induction l with
  | nil => exact ⟨by simp, h⟩
  | cons i l ih =>
    rw [List.flatMap_cons, List.flatMap_cons, List.append_assoc, List.append_assoc] at h
    have st : ∀ (f g : Nat → Int) (r : List Op), (∀ c, StopsAt (ofColour c) r) → ∀ c,
        StopsAt (ofColour c) (l.flatMap (fun i => k.point pal (i + 1) (f i) (g i)) ++ r) := by
      intro f g r hr c
      cases l with
      | nil => exact hr c
      | cons j l =>
        rw [List.flatMap_cons, List.append_assoc]
        exact point_stops c
    obtain ⟨h1, h2, h3⟩ := point_cut hc (hf _) (hg _) (hf' _) (hg' _) (st f g r hr) (st f' g' r' hr') h
    obtain ⟨h4, h5⟩ := ih h3
    refine ⟨?_, h5⟩
    intro j hj
    rcases List.mem_cons.1 hj with rfl | hj
    · exact ⟨h1, h2⟩
    · exact h4 j hj

theorem cube_ops (x y : Int) (n : Nat) : k.cube pal x y n =
    [k.rect x y 25 25 pal.cube, k.text x y 25 25 (cubeFace n) pal.font pal.cubeInk] := rfl

def isEllipse : Op → Bool
  | .ellipse .. => true
  | _ => false

def isText : Op → Bool
  | .text .. => true
  | _ => false

theorem eyes_inj {n m : Int} (hn : 1 ≤ n ∧ n ≤ 6) (hm : 1 ≤ m ∧ m ≤ 6) (h : (eyes n).length = (eyes m).length) : n = m := by
  have h1 : n = 1 ∨ n = 2 ∨ n = 3 ∨ n = 4 ∨ n = 5 ∨ n = 6 := by omega
  have h2 : m = 1 ∨ m = 2 ∨ m = 3 ∨ m = 4 ∨ m = 5 ∨ m = 6 := by omega
  have e : ∀ j : Int, 1 ≤ j → j ≤ 6 → (eyes j).length = j.toNat := by
    intro j a b
    have : j = 1 ∨ j = 2 ∨ j = 3 ∨ j = 4 ∨ j = 5 ∨ j = 6 := by omega
    rcases this with rfl | rfl | rfl | rfl | rfl | rfl <;> rfl
  rw [e n hn.1 hn.2, e m hm.1 hm.2] at h
  omega

theorem die_cut {x y : Int} {c d : Text} {n m : Int} {r r' : List Op} (hn : 1 ≤ n ∧ n ≤ 6) (hm : 1 ≤ m ∧ m ≤ 6)
    (h : k.die x y c d n ++ r = k.die x y c d m ++ r') (hr : StopsAt isEllipse r) (hr' : StopsAt isEllipse r') :
    n = m ∧ r = r' := by
  unfold Ink.die at h
  simp only [List.cons_append, List.cons.injEq, true_and] at h
  have all : ∀ (l : List (Int × Int)) (f : Int × Int → Int × Int) (s : Int × Int),
      ∀ o ∈ l.map (fun e => Op.ellipse (f e) s (some d)), isEllipse o = true := by
    intro l f s o ho
    rw [List.mem_map] at ho
    obtain ⟨e, -, rfl⟩ := ho
    rfl
  obtain ⟨h1, h2⟩ := cut_unique h (all _ (fun e => (k.scale x + k.scale 16 * e.1 / 4 - k.scale 3 / 2,
    k.scale y + k.scale 16 * e.2 / 4 - k.scale 3 / 2)) _) (all _ (fun e => (k.scale x + k.scale 16 * e.1 / 4 - k.scale 3 / 2,
    k.scale y + k.scale 16 * e.2 / 4 - k.scale 3 / 2)) _) hr hr'
  have := congrArg List.length h1
  rw [List.length_map, List.length_map] at this
  exact ⟨eyes_inj hn hm this, h2⟩

/-- What the action text says. -/
theorem words_inj {b c : Board} (hb : TurnsOk b) (hc : TurnsOk c) (h : (actionWords b).2 = (actionWords c).2) :
    b.onAction = c.onAction ∧ (b.rolled = (0, 0) ↔ c.rolled = (0, 0)) ∧
    (b.rolled = (0, 0) → b.onInnerAction = c.onInnerAction ∧ b.doubled = c.doubled) := by
  obtain ⟨b1, b2⟩ := hb
  obtain ⟨c1, c2⟩ := hc
  unfold actionWords phrases at h
  by_cases rb : b.rolled = (0, 0) <;> by_cases rc : c.rolled = (0, 0) <;> cases db : b.doubled <;> cases dc : c.doubled <;>
    rcases b1 with b1 | b1 <;> rcases c1 with c1 | c1 <;> rcases b2 with b2 | b2 <;> rcases c2 with c2 | c2 <;>
    simp [rb, rc, db, dc, b1, c1, b2, c2, YOU] at h ⊢

theorem resign_inj {n m : Int} (hn : 1 ≤ n ∧ n ≤ 3) (hm : 1 ≤ m ∧ m ≤ 3) (h : resignWord n.toNat = resignWord m.toNat) :
    n = m := by
  have h1 : n = 1 ∨ n = 2 ∨ n = 3 := by omega
  have h2 : m = 1 ∨ m = 2 ∨ m = 3 := by omega
  rcases h1 with rfl | rfl | rfl <;> rcases h2 with rfl | rfl | rfl <;> first | rfl | (revert h; decide)

theorem face_inj {n m : Nat} (h : cubeFace (n + 1) = cubeFace (m + 1)) : n = m := by
  unfold cubeFace at h
  rw [if_neg (by omega), if_neg (by omega)] at h
  have := (Nat.pow_right_inj (by omega)).1 (decimal_inj h)
  omega

/-- The fields of two boards whose action texts are the same. -/
theorem field_cut {b c : Board} {p : Int} {r r' : List Op} (hw : b.onAction = c.onAction)
    (hz : b.rolled = (0, 0) ↔ c.rolled = (0, 0))
    (hi : b.rolled = (0, 0) → b.onInnerAction = c.onInnerAction ∧ b.doubled = c.doubled)
    (db : DiceOk b) (dc : DiceOk c) (wb : Drawable b) (wc : Drawable c)
    (hr : StopsAt isEllipse r) (hr' : StopsAt isEllipse r') (h : k.field pal b p ++ r = k.field pal c p ++ r') :
    (b.rolled ≠ (0, 0) → b.onAction = p → b.rolled = c.rolled) ∧
    (Resigning b → b.onAction ≠ p → b.resignOffer = c.resignOffer) ∧
    (Pending b → b.rolled = (0, 0) → b.onAction ≠ p → b.cube = c.cube) ∧ r = r' := by
  unfold Ink.field at h
  simp only [List.cons_append, List.cons.injEq, true_and] at h
  by_cases rb : b.rolled = (0, 0)
  · have rc := hz.1 rb
    obtain ⟨h1, h2⟩ := hi rb
    rw [if_neg (show ¬ b.rolled ≠ (0, 0) from fun x => x rb), if_neg (show ¬ c.rolled ≠ (0, 0) from fun x => x rc), ← hw, ← h1, ← h2] at h
    by_cases hin : b.onInnerAction = b.onAction
    · simp only [hin, true_or, if_true, List.nil_append] at h
      exact ⟨fun x => absurd rb x, fun x => absurd hin x.2.1, fun x => absurd hin x.2, h⟩
    · by_cases hp : b.onAction = p
      · simp only [hp, or_true, if_true, List.nil_append] at h
        exact ⟨fun x => absurd rb x, fun _ x => absurd hp x, fun _ _ x => absurd hp x, h⟩
      · have hno : ¬ (b.onInnerAction = b.onAction ∨ b.onAction = p) := by simp [hin, hp]
        rw [if_neg hno, if_neg hno] at h
        cases hd : b.doubled with
        | true =>
          simp only [hd, if_true, cube_ops, List.cons_append, List.cons.injEq, true_and, Ink.text, Op.text.injEq,
            and_true, List.nil_append] at h
          refine ⟨fun x => absurd rb x, fun x => ?_, fun _ _ _ => face_inj h.1, h.2⟩
          have := x.2.2
          rw [hd] at this
          simp at this
        | false =>
          simp only [hd, Bool.false_eq_true, if_false, List.cons_append, List.cons.injEq, Ink.text, Op.text.injEq,
            true_and, and_true, List.nil_append] at h
          refine ⟨fun x => absurd rb x, fun _ _ => ?_, fun x => ?_, h.2⟩
          · apply resign_inj _ _ h.1
            · rcases wb with x | x | x | x
              · exact absurd rb x
              · exact absurd x hin
              · rw [hd] at x; simp at x
              · exact x
            · rcases wc with x | x | x | x
              · exact absurd rc x
              · exact absurd (h1.trans (x.trans hw.symm)) hin
              · rw [← h2, hd] at x; simp at x
              · exact x
          · have := x.1
            rw [hd] at this
            simp at this
  · have rc : c.rolled ≠ (0, 0) := fun x => rb (hz.2 x)
    rw [if_pos rb, if_pos rc, ← hw] at h
    have res : ¬ Resigning b := fun x => rb x.1
    by_cases hp : b.onAction = p
    · rw [if_pos hp, if_pos hp, List.append_assoc, List.append_assoc] at h
      rcases db with x | ⟨b1, b2, b3, b4⟩
      · exact absurd x rb
      rcases dc with x | ⟨c1, c2, c3, c4⟩
      · exact absurd x rc
      obtain ⟨e1, h⟩ := die_cut ⟨b1, b2⟩ ⟨c1, c2⟩ h (stops_cons rfl) (stops_cons rfl)
      obtain ⟨e2, h⟩ := die_cut ⟨b3, b4⟩ ⟨c3, c4⟩ h hr hr'
      exact ⟨fun _ _ => Prod.ext e1 e2, fun x => absurd x res, fun _ x => absurd x rb, h⟩
    · rw [if_neg hp, if_neg hp] at h
      exact ⟨fun _ x => absurd x hp, fun x => absurd x res, fun _ x => absurd x rb, h⟩

/-- No cube comes first. -/
def NoCube : List Op → Prop
  | .rect .. :: .text .. :: _ => False
  | _ => True

theorem at_ops (o : Int) : ∃ x y, ∀ b : Board, k.cubeAt pal b o = if Pending b ∨ b.cubeOwner ≠ o then [] else
    [k.rect x y 25 25 pal.cube, k.text x y 25 25 (cubeFace b.cube) pal.font pal.cubeInk] := by
  by_cases h0 : o = 0
  · exact ⟨0, 197, fun b => by simp [Ink.cubeAt, h0, cube_ops]⟩
  · by_cases h1 : o = 1
    · exact ⟨0, 5, fun b => by simp [Ink.cubeAt, h1, cube_ops]⟩
    · exact ⟨0, 105, fun b => by simp [Ink.cubeAt, h0, h1, cube_ops]⟩

theorem at_cut {b c : Board} {o : Int} {r r' : List Op} (h : k.cubeAt pal b o ++ r = k.cubeAt pal c o ++ r')
    (hr : NoCube r) (hr' : NoCube r') :
    (Pending b ∨ b.cubeOwner ≠ o ↔ Pending c ∨ c.cubeOwner ≠ o) ∧
    (¬ (Pending b ∨ b.cubeOwner ≠ o) → cubeFace b.cube = cubeFace c.cube) ∧ r = r' := by
  obtain ⟨x, y, hxy⟩ := at_ops (k := k) (pal := pal) o
  rw [hxy b, hxy c] at h
  by_cases hb : Pending b ∨ b.cubeOwner ≠ o
  · by_cases hc : Pending c ∨ c.cubeOwner ≠ o
    · rw [if_pos hb, if_pos hc] at h
      exact ⟨⟨fun _ => hc, fun _ => hb⟩, fun x => absurd hb x, h⟩
    · rw [if_pos hb, if_neg hc, List.nil_append] at h
      rw [h] at hr
      exact absurd hr (by simp [NoCube, Ink.rect, Ink.text])
  · by_cases hc : Pending c ∨ c.cubeOwner ≠ o
    · rw [if_neg hb, if_pos hc, List.nil_append] at h
      rw [← h] at hr'
      exact absurd hr' (by simp [NoCube, Ink.rect, Ink.text])
    · rw [if_neg hb, if_neg hc] at h
      simp only [List.cons_append, List.nil_append, List.cons.injEq, true_and, Ink.text, Op.text.injEq, and_true] at h
      exact ⟨⟨fun x => absurd x hb, fun x => absurd x hc⟩, fun _ => h.1, h.2⟩

theorem star_not_number (n : Int) : pyStr n ≠ t!"*" := by
  intro h
  have := pyInt_pyStr n
  rw [h] at this
  revert this
  rw [show pyInt t!"*" = none by decide]
  simp

theorem cnt_nonneg {l : List Int} (h : ∀ x ∈ l, 0 ≤ x) (i : Nat) : 0 ≤ cnt l i := by
  unfold cnt
  rw [List.getD_eq_getElem?_getD]
  cases hi : l[i]? with
  | none => exact Int.le_refl 0
  | some x => exact h x (List.mem_of_getElem? hi)

theorem cnt_ext {l m : List Int} (hl : l.length = 25) (hm : m.length = 25) (h : ∀ i, i < 25 → cnt l i = cnt m i) : l = m := by
  apply List.ext_getElem (hl.trans hm.symm)
  intro i h1 h2
  have := h i (by omega)
  unfold cnt at this
  simpa [h1, h2] using this

theorem points_stop {P : Op → Bool} (hP : ∀ l c, P (.polygon l c) = false) {f g : Nat → Int} {r : List Op} :
    StopsAt P ((List.range 24).flatMap (fun i => k.point pal (i + 1) (f i) (g i)) ++ r) := by
  rw [show List.range 24 = 0 :: (List.range 23).map Nat.succ by decide, List.flatMap_cons, List.append_assoc]
  unfold Ink.point Ink.triangle
  dsimp only
  exact stops_cons (hP _ _)

theorem pile_no_text {x y dy max : Int} {f c : Text} {n : Int} {r : List Op} (hm : 0 < max) (hr : StopsAt isText r) :
    StopsAt isText (k.pile x y dy max f c n ++ r) := by
  unfold Ink.pile
  by_cases hn : n ≤ 0
  · rw [if_neg (by omega), show (min n max).toNat = 0 by omega]
    exact hr
  · obtain ⟨j, hj⟩ : ∃ j, (min n max).toNat = j + 1 := ⟨(min n max).toNat - 1, by omega⟩
    rw [hj, List.range_succ_eq_map]
    exact stops_cons rfl

theorem bar_no_cube {x y w v : Int} {c : Text} {r : List Op} (hr : StopsAt isText r) :
    NoCube (k.rect x y w v c :: r) := by
  cases r with
  | nil => simp [NoCube, Ink.rect]
  | cons o r =>
    have := hr o (by simp)
    cases o <;> simp_all [NoCube, Ink.rect, isText]

/-- The picture says it all. -/
theorem picture_inj {b c : Board} (hcol : pal.chequer.1 ≠ pal.chequer.2)
    (sb : Sensible b) (sc : Sensible c) (wb : Drawable b) (wc : Drawable c) (db : DiceOk b) (dc : DiceOk c)
    (nb : NoDebt b) (nc : NoDebt c) (ob : b.position.1.sum ≤ 15) (oc : c.position.1.sum ≤ 15)
    (h : k.picture pal b = k.picture pal c) : SameSight b c := by
  unfold Ink.picture at h
  simp only [List.cons_append, List.nil_append, List.append_assoc, List.cons.injEq, true_and, Ink.text, Op.text.injEq,
    and_true] at h
  obtain ⟨⟨hwords, -⟩, hlen, h⟩ := h
  obtain ⟨hturn, hz, hin⟩ := words_inj sb.turns sc.turns hwords
  have hcr : b.crawford = c.crawford := by
    cases h1 : b.crawford <;> cases h2 : c.crawford <;> rw [h1, h2] at h
    · simp only [Bool.false_eq_true, if_false, if_true, List.nil_append, List.cons_append, List.cons.injEq, Op.text.injEq] at h
      exact absurd h.1.2.2.1 (star_not_number _)
    · simp only [Bool.false_eq_true, if_false, if_true, List.nil_append, List.cons_append, List.cons.injEq, Op.text.injEq] at h
      exact absurd h.1.2.2.1.symm (star_not_number _)
  rw [hcr] at h
  replace h := List.append_cancel_left h
  simp only [List.cons.injEq, Op.text.injEq, true_and, and_true] at h
  obtain ⟨hs1, hs2, h⟩ := h
  obtain ⟨p3, f3, h⟩ := at_cut h (by simp [NoCube, Ink.field, Ink.text]) (by simp [NoCube, Ink.field, Ink.text])
  obtain ⟨d0, r0, q0, h⟩ := field_cut hturn hz hin db dc wb wc (stops_cons rfl) (stops_cons rfl) h
  simp only [List.cons.injEq, true_and] at h
  have offs : ∀ {c : Text} {o : Int} {b : Board} {r : List Op}, StopsAt (ofColour c) r →
      StopsAt (ofColour c) (k.cubeAt pal b o ++ r) := by
    intro c o b r hr
    obtain ⟨x, y, hxy⟩ := at_ops (k := k) (pal := pal) o
    rw [hxy b]
    split
    · exact hr
    · exact stops_cons rfl
  obtain ⟨-, h⟩ := pile_cut (by omega) (by omega) (by omega) h (offs (stops_cons rfl)) (offs (stops_cons rfl))
  have n1 := cnt_nonneg nb.1
  have n2 := cnt_nonneg nb.2
  have n3 := cnt_nonneg nc.1
  have n4 := cnt_nonneg nc.2
  obtain ⟨p0, f0, h⟩ := at_cut h (bar_no_cube (pile_no_text (by omega) (points_stop fun _ _ => rfl)))
    (bar_no_cube (pile_no_text (by omega) (points_stop fun _ _ => rfl)))
  simp only [List.cons.injEq, true_and] at h
  obtain ⟨b2, h⟩ := pile_cut (n2 24) (n4 24) (by omega) h (points_stop fun _ _ => rfl) (points_stop fun _ _ => rfl)
  obtain ⟨hp, h⟩ := points_cut hcol (f := cnt b.position.1) (f' := cnt c.position.1) (g := fun i => cnt b.position.2 (23 - i))
    (g' := fun i => cnt c.position.2 (23 - i)) n1 (fun _ => n2 _) n3 (fun _ => n4 _)
    (fun _ => stops_cons rfl) (fun _ => stops_cons rfl) h
  simp only [List.cons.injEq, true_and] at h
  obtain ⟨b1, h⟩ := pile_cut (n1 24) (n3 24) (by omega) h (stops_cons rfl) (stops_cons rfl)
  simp only [List.cons.injEq, true_and] at h
  have hpos : b.position = c.position := by
    refine Prod.ext (cnt_ext sb.you sc.you ?_) (cnt_ext sb.him sc.him ?_)
    · intro i hi
      by_cases h24 : i = 24
      · rw [h24]; exact b1
      · exact (hp i (List.mem_range.2 (by omega))).1
    · intro i hi
      by_cases h24 : i = 24
      · rw [h24]; exact b2
      · have := (hp (23 - i) (List.mem_range.2 (by omega))).2
        simpa only [show 23 - (23 - i) = i by omega] using this
  rw [hpos] at h
  replace h := List.append_cancel_left h
  obtain ⟨p1, f1, h⟩ := at_cut h (by simp [NoCube, Ink.field, Ink.text]) (by simp [NoCube, Ink.field, Ink.text])
  rw [← List.append_nil (k.field pal b 1), ← List.append_nil (k.field pal c 1)] at h
  obtain ⟨d1, r1, q1, -⟩ := field_cut hturn hz hin db dc wb wc (fun _ h => by simp at h) (fun _ h => by simp at h) h
  have hdice : b.rolled = c.rolled := by
    by_cases rb : b.rolled = (0, 0)
    · rw [rb, hz.1 rb]
    · rcases sb.turns.1 with h | h
      · exact d0 rb h
      · exact d1 rb h
  have hpend : Pending b ↔ Pending c := by
    rcases sb.owner with h | h | h <;> rcases sc.owner with h' | h' | h' <;> simp only [h, h', ne_eq] at p0 p1 p3 <;> simp_all
  have hown : ¬ Pending b → b.cubeOwner = c.cubeOwner := by
    intro hn
    have hn' : ¬ Pending c := fun h => hn (hpend.2 h)
    rcases sb.owner with h | h | h <;> rcases sc.owner with h' | h' | h' <;> simp only [h, h', ne_eq] at p0 p1 p3 <;> simp_all
  refine ⟨hpos, ?_, pyStr_inj hlen, hcr, hturn, hdice, hin, ?_, hpend, hown, ?_, ?_⟩
  · exact Prod.ext (pyStr_inj hs1) (pyStr_inj hs2)
  · intro hr
    rcases sb.turns.1 with h | h
    · exact r1 hr (by rw [h]; decide)
    · exact r0 hr (by rw [h]; decide)
  · intro hn
    rcases sb.owner with h | h | h
    · exact f0 (by simp [hn, h])
    · exact f1 (by simp [hn, h])
    · exact f3 (by simp [hn, h])
  · intro hp hz
    rcases sb.turns.1 with h | h
    · exact q1 hp hz (by rw [h]; decide)
    · exact q0 hp hz (by rw [h]; decide)

end Bglib
