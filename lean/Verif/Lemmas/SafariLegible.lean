import Verif.Spec.Cards
import Verif.Lemmas.Legible
/-
A picture drawn with the style safari can be read back.
-/
namespace Bglib
open Spec Img

variable {k : Ink}

/-- An image of the style safari whose name begins like this. -/
def ofFamily (name : Text) : Op → Bool
  | .image src _ _ _ => (t!"bglib/image/resource/safari/" ++ name).isPrefixOf src
  | _ => false

theorem card_family (x y w h : Int) (f : Bool) (name : Text) (lo hi : Nat) (n : Int) :
    ∀ o ∈ k.card x y w h f name lo hi n, ofFamily name o = true := by
  intro o ho
  unfold Ink.card at ho
  split at ho
  · rw [List.mem_singleton] at ho
    subst ho
    simp only [Ink.image, ofFamily, safari, List.isPrefixOf_iff_prefix]
    refine ⟨pyStr n ++ t!".jpg", ?_⟩
    simp only [List.append_assoc]
  · simp at ho

theorem card_inj {x y w h : Int} {f : Bool} {name : Text} {lo hi : Nat} {n m : Int} (hn : 0 ≤ n ∧ n ≤ hi)
    (hm : 0 ≤ m ∧ m ≤ hi) (hlo : lo ≤ 1) (e : k.card x y w h f name lo hi n = k.card x y w h f name lo hi m) : n = m := by
  unfold Ink.card at e
  by_cases h1 : (lo : Int) ≤ n ∧ n ≤ hi
  · by_cases h2 : (lo : Int) ≤ m ∧ m ≤ hi
    · rw [if_pos h1, if_pos h2] at e
      simp only [List.cons.injEq, Ink.image, Op.image.injEq, safari, and_true] at e
      have e := List.append_cancel_left e
      rw [List.append_assoc, List.append_assoc] at e
      exact pyStr_inj (List.append_cancel_right (List.append_cancel_left e))
    · rw [if_pos h1, if_neg h2] at e; simp at e
  · by_cases h2 : (lo : Int) ≤ m ∧ m ≤ hi
    · rw [if_neg h1, if_pos h2] at e; simp at e
    · omega

theorem card_cut {x y w h : Int} {f : Bool} {name : Text} {lo hi : Nat} {n m : Int} {r r' : List Op}
    (hn : 0 ≤ n ∧ n ≤ hi) (hm : 0 ≤ m ∧ m ≤ hi) (hlo : lo ≤ 1)
    (e : k.card x y w h f name lo hi n ++ r = k.card x y w h f name lo hi m ++ r') (hr : StopsAt (ofFamily name) r)
    (hr' : StopsAt (ofFamily name) r') : n = m ∧ r = r' := by
  obtain ⟨h1, h2⟩ := cut_unique e (card_family x y w h f name lo hi n) (card_family x y w h f name lo hi m) hr hr'
  exact ⟨card_inj hn hm hlo h1, h2⟩

/-- A numbered image that must be there. -/
theorem card_here {x y w h : Int} {f : Bool} {name : Text} {lo hi : Nat} {n : Int} (hn : lo ≤ n ∧ n ≤ hi) :
    k.card x y w h f name lo hi n = [k.image x y w h f (safari (name ++ pyStr n))] := by
  unfold Ink.card
  rw [if_pos hn]

theorem here_inj {name : Text} {n m : Int} (e : safari (name ++ pyStr n) = safari (name ++ pyStr m)) : n = m := by
  unfold safari at e
  have e := List.append_cancel_left e
  rw [List.append_assoc, List.append_assoc] at e
  exact pyStr_inj (List.append_cancel_right (List.append_cancel_left e))

theorem stops_card {name other : Text} (hd : ∀ t : Text, (t!"bglib/image/resource/safari/" ++ name).isPrefixOf
      (safari (other ++ t)) = false) {x y w h : Int} {f : Bool} {lo hi : Nat} {n : Int} {r : List Op}
    (hr : StopsAt (ofFamily name) r) : StopsAt (ofFamily name) (k.card x y w h f other lo hi n ++ r) := by
  unfold Ink.card
  split
  · exact stops_cons (hd _)
  · exact hr

/-- The chequers of a point. -/
theorem safari_point_cut {i : Nat} {u v u' v' : Int} {r r' : List Op} (hu : 0 ≤ u ∧ u ≤ 15) (hv : 0 ≤ v ∧ v ≤ 15)
    (hu' : 0 ≤ u' ∧ u' ≤ 15) (hv' : 0 ≤ v' ∧ v' ≤ 15)
    (hr : ∀ name ∈ [t!"odd-white-", t!"even-white-", t!"odd-green-", t!"even-green-"], StopsAt (ofFamily name) r)
    (hr' : ∀ name ∈ [t!"odd-white-", t!"even-white-", t!"odd-green-", t!"even-green-"], StopsAt (ofFamily name) r')
    (h : k.safariPoint i u v ++ r = k.safariPoint i u' v' ++ r') : u = u' ∧ v = v' ∧ r = r' := by
  unfold Ink.safariPoint at h
  simp only [List.cons_append, List.cons.injEq, true_and] at h
  by_cases hp : i % 2 = 1
  · simp only [hp, if_true] at h
    by_cases hi : i ≤ 12
    · simp only [hi, if_true, List.append_assoc] at h
      obtain ⟨h1, h2⟩ := card_cut hu hu' (by omega) h (stops_card (fun _ => rfl) (hr _ (by simp)))
        (stops_card (fun _ => rfl) (hr' _ (by simp)))
      obtain ⟨h3, h4⟩ := card_cut hv hv' (by omega) h2 (hr _ (by simp)) (hr' _ (by simp))
      exact ⟨h1, h3, h4⟩
    · simp only [hi, if_false, List.append_assoc] at h
      obtain ⟨h1, h2⟩ := card_cut hv hv' (by omega) h (stops_card (fun _ => rfl) (hr _ (by simp)))
        (stops_card (fun _ => rfl) (hr' _ (by simp)))
      obtain ⟨h3, h4⟩ := card_cut hu hu' (by omega) h2 (hr _ (by simp)) (hr' _ (by simp))
      exact ⟨h3, h1, h4⟩
  · simp only [hp, if_false] at h
    by_cases hi : i ≤ 12
    · simp only [hi, if_true, List.append_assoc] at h
      obtain ⟨h1, h2⟩ := card_cut hu hu' (by omega) h (stops_card (fun _ => rfl) (hr _ (by simp)))
        (stops_card (fun _ => rfl) (hr' _ (by simp)))
      obtain ⟨h3, h4⟩ := card_cut hv hv' (by omega) h2 (hr _ (by simp)) (hr' _ (by simp))
      exact ⟨h1, h3, h4⟩
    · simp only [hi, if_false, List.append_assoc] at h
      obtain ⟨h1, h2⟩ := card_cut hv hv' (by omega) h (stops_card (fun _ => rfl) (hr _ (by simp)))
        (stops_card (fun _ => rfl) (hr' _ (by simp)))
      obtain ⟨h3, h4⟩ := card_cut hu hu' (by omega) h2 (hr _ (by simp)) (hr' _ (by simp))
      exact ⟨h3, h1, h4⟩

theorem safari_point_stops {P : Op → Bool} (h1 : ∀ s f p, P (.image (safari t!"odd-none") s f p) = false)
    (h2 : ∀ s f p, P (.image (safari t!"even-none") s f p) = false) {i : Nat} {u v : Int} {r : List Op} :
    StopsAt P (k.safariPoint i u v ++ r) := by
  unfold Ink.safariPoint
  by_cases hp : i % 2 = 1
  · simp only [hp, if_true]
    exact stops_cons (h1 _ _ _)
  · simp only [hp, if_false]
    exact stops_cons (h2 _ _ _)

theorem none_not {name : Text} (h : name ∈ [t!"odd-white-", t!"even-white-", t!"odd-green-", t!"even-green-"]) :
    (∀ s f p, ofFamily name (.image (safari t!"odd-none") s f p) = false) ∧
    ∀ s f p, ofFamily name (.image (safari t!"even-none") s f p) = false := by
  simp only [List.mem_cons, List.not_mem_nil, or_false] at h
  rcases h with rfl | rfl | rfl | rfl <;> exact ⟨fun _ _ _ => rfl, fun _ _ _ => rfl⟩

theorem safari_points_cut {l : List Nat} {f g f' g' : Nat → Int} {r r' : List Op}
    (hf : ∀ i, 0 ≤ f i ∧ f i ≤ 15) (hg : ∀ i, 0 ≤ g i ∧ g i ≤ 15) (hf' : ∀ i, 0 ≤ f' i ∧ f' i ≤ 15)
    (hg' : ∀ i, 0 ≤ g' i ∧ g' i ≤ 15)
    (hr : ∀ name ∈ [t!"odd-white-", t!"even-white-", t!"odd-green-", t!"even-green-"], StopsAt (ofFamily name) r)
    (hr' : ∀ name ∈ [t!"odd-white-", t!"even-white-", t!"odd-green-", t!"even-green-"], StopsAt (ofFamily name) r')
    (h : l.flatMap (fun i => k.safariPoint (i + 1) (f i) (g i)) ++ r =
      l.flatMap (fun i => k.safariPoint (i + 1) (f' i) (g' i)) ++ r') :
    (∀ i ∈ l, f i = f' i ∧ g i = g' i) ∧ r = r' := by
  induction l with
  | nil => exact ⟨by simp, h⟩
  | cons i l ih =>
    rw [List.flatMap_cons, List.flatMap_cons, List.append_assoc, List.append_assoc] at h
    have st : ∀ (f g : Nat → Int) (r : List Op),
        (∀ name ∈ [t!"odd-white-", t!"even-white-", t!"odd-green-", t!"even-green-"], StopsAt (ofFamily name) r) →
        ∀ name ∈ [t!"odd-white-", t!"even-white-", t!"odd-green-", t!"even-green-"],
          StopsAt (ofFamily name) (l.flatMap (fun i => k.safariPoint (i + 1) (f i) (g i)) ++ r) := by
      intro f g r hr name hm
      cases l with
      | nil => exact hr name hm
      | cons j l =>
        rw [List.flatMap_cons, List.append_assoc]
        exact safari_point_stops (none_not hm).1 (none_not hm).2
    obtain ⟨h1, h2, h3⟩ := safari_point_cut (hf _) (hg _) (hf' _) (hg' _) (st f g r hr) (st f' g' r' hr') h
    obtain ⟨h4, h5⟩ := ih h3
    refine ⟨?_, h5⟩
    intro j hj
    rcases List.mem_cons.1 hj with rfl | hj
    · exact ⟨h1, h2⟩
    · exact h4 j hj

theorem safari_at_cut {b c : Board} {o : Int} {r r' : List Op} (hb : b.cube ≤ 5) (hc : c.cube ≤ 5)
    (h : k.safariCubeAt b o ++ r = k.safariCubeAt c o ++ r')
    (hr : StopsAt (ofFamily t!"cube_") r) (hr' : StopsAt (ofFamily t!"cube_") r') :
    (Pending b ∨ b.cubeOwner ≠ o ↔ Pending c ∨ c.cubeOwner ≠ o) ∧
    (¬ (Pending b ∨ b.cubeOwner ≠ o) → b.cube = c.cube) ∧ r = r' := by
  unfold Ink.safariCubeAt Ink.safariCube at h
  rw [card_here (by omega), card_here (by omega)] at h
  by_cases hb : Pending b ∨ b.cubeOwner ≠ o
  · by_cases hc : Pending c ∨ c.cubeOwner ≠ o
    · rw [if_pos hb, if_pos hc] at h
      exact ⟨⟨fun _ => hc, fun _ => hb⟩, fun x => absurd hb x, h⟩
    · rw [if_pos hb, if_neg hc, List.nil_append] at h
      rw [h] at hr
      have := hr _ (List.head?_cons ..)
      exact absurd this (by simp [ofFamily, Ink.image, safari])
  · by_cases hc : Pending c ∨ c.cubeOwner ≠ o
    · rw [if_neg hb, if_pos hc, List.nil_append] at h
      rw [← h] at hr'
      have := hr' _ (List.head?_cons ..)
      exact absurd this (by simp [ofFamily, Ink.image, safari])
    · rw [if_neg hb, if_neg hc] at h
      simp only [List.cons_append, List.nil_append, List.cons.injEq, Ink.image, Op.image.injEq, and_true] at h
      exact ⟨⟨fun x => absurd x hb, fun x => absurd x hc⟩, fun _ => by have := here_inj (name := t!"cube_") h.1; omega, h.2⟩

/-- What can lie in a field. -/
def inField (o : Op) : Bool := ofFamily t!"die_" o || (ofFamily t!"cube_" o || ofFamily t!"chip.png" o)

/-- What lies in a field, by its first image. -/
def fieldKind : List Op → Nat
  | [] => 0
  | o :: _ => if ofFamily t!"die_" o then 1 else if ofFamily t!"cube_" o then 2 else 3

def boardKind (b : Board) (p : Int) : Nat :=
  if b.rolled ≠ (0, 0) then if b.onAction = p then 1 else 0
  else if b.onInnerAction = b.onAction ∨ b.onAction = p then 0 else if b.doubled then 2 else 3

theorem safari_field_in (b : Board) (p : Int) : ∀ o ∈ (k.safariField b p).tail, inField o = true := by
  intro o ho
  unfold Ink.safariField at ho
  rw [List.tail_cons] at ho
  unfold inField
  split at ho
  · split at ho
    · rw [List.mem_append] at ho
      rcases ho with ho | ho <;> rw [card_family _ _ _ _ _ _ _ _ _ o ho] <;> rfl
    · simp at ho
  · split at ho
    · simp at ho
    · split at ho
      · unfold Ink.safariCube at ho
        rw [card_family _ _ _ _ _ _ _ _ _ o ho, Bool.true_or, Bool.or_true]
      · rw [List.mem_map] at ho
        obtain ⟨j, -, rfl⟩ := ho
        rfl

theorem safari_field_kind {b : Board} (hd : DiceOk b) (hw : Drawable b) (hc : HasCards b) (p : Int) :
    fieldKind (k.safariField b p).tail = boardKind b p := by
  unfold Ink.safariField boardKind
  rw [List.tail_cons]
  split
  · rename_i hr
    split
    · rcases hd with h | ⟨h1, h2, h3, h4⟩
      · exact absurd h hr
      · rw [card_here (by omega)]
        rfl
    · rfl
  · rename_i hr
    have hr : b.rolled = (0, 0) := Decidable.not_not.1 hr
    split
    · rfl
    · rename_i hi
      split
      · rename_i hdb
        have := hc.offered ⟨hdb, fun x => hi (.inl x)⟩
        unfold Ink.safariCube
        rw [card_here (by omega)]
        rfl
      · rename_i hdb
        have : 1 ≤ b.resignOffer := by
          rcases hw with h | h | h | h
          · exact absurd hr h
          · exact absurd (.inl h) hi
          · exact absurd h hdb
          · exact h.1
        obtain ⟨j, hj⟩ : ∃ j, b.resignOffer.toNat = j + 1 := ⟨b.resignOffer.toNat - 1, by omega⟩
        rw [hj, List.range_succ_eq_map]
        rfl

/-- The fields and the mark of the player tell whose turn it is. -/
theorem safari_kinds_inj {b c : Board} (hb : TurnsOk b) (hc : TurnsOk c) (h0 : boardKind b 0 = boardKind c 0)
    (h1 : boardKind b 1 = boardKind c 1) (hw : (actionWords b).1 = 0 ↔ (actionWords c).1 = 0) :
    b.onAction = c.onAction ∧ (b.rolled = (0, 0) ↔ c.rolled = (0, 0)) ∧
    (b.rolled = (0, 0) → b.onInnerAction = c.onInnerAction ∧ (b.onInnerAction ≠ b.onAction → b.doubled = c.doubled)) := by
  obtain ⟨b1, b2⟩ := hb
  obtain ⟨c1, c2⟩ := hc
  unfold actionWords at hw
  unfold boardKind at h0 h1
  by_cases rb : b.rolled = (0, 0) <;> by_cases rc : c.rolled = (0, 0) <;> cases db : b.doubled <;> cases dc : c.doubled <;>
    rcases b1 with b1 | b1 <;> rcases c1 with c1 | c1 <;> rcases b2 with b2 | b2 <;> rcases c2 with c2 | c2 <;>
    simp [rb, rc, db, dc, b1, c1, b2, c2, YOU, other] at h0 h1 hw ⊢

theorem safari_field_cut {b c : Board} {p : Int} {r r' : List Op} (hr : StopsAt inField r) (hr' : StopsAt inField r')
    (h : k.safariField b p ++ r = k.safariField c p ++ r') :
    (k.safariField b p).tail = (k.safariField c p).tail ∧ r = r' := by
  have e : ∀ b : Board, k.safariField b p = (k.safariField b p).head (List.cons_ne_nil _ _) :: (k.safariField b p).tail :=
    fun b => (List.cons_head_tail _).symm
  rw [e b, e c, List.cons_append, List.cons_append, List.cons.injEq] at h
  exact cut_unique h.2 (safari_field_in b p) (safari_field_in c p) hr hr'

theorem cnt_within {l : List Int} (h : ∀ x ∈ l, 0 ≤ x ∧ x ≤ 15) (i : Nat) : 0 ≤ cnt l i ∧ cnt l i ≤ 15 := by
  unfold cnt
  rw [List.getD_eq_getElem?_getD]
  cases hi : l[i]? with
  | none => exact ⟨Int.le_refl 0, by decide⟩
  | some x => exact h x (List.mem_of_getElem? hi)

theorem safari_points_stop {P : Op → Bool} (h1 : ∀ s f p, P (.image (safari t!"odd-none") s f p) = false)
    (h2 : ∀ s f p, P (.image (safari t!"even-none") s f p) = false) {f g : Nat → Int} {r : List Op} :
    StopsAt P ((List.range 24).flatMap (fun i => k.safariPoint (i + 1) (f i) (g i)) ++ r) := by
  rw [show List.range 24 = 0 :: (List.range 23).map Nat.succ by decide, List.flatMap_cons, List.append_assoc]
  exact safari_point_stops h1 h2

/-- What the picture says. -/
theorem safari_inj {b c : Board} (sb : Sensible b) (sc : Sensible c) (wb : Drawable b) (wc : Drawable c) (db : DiceOk b)
    (dc : DiceOk c) (nb : HasCards b) (nc : HasCards c) (h : k.safariPicture b = k.safariPicture c) : SafariSight b c := by
  unfold Ink.safariPicture at h
  obtain ⟨b1, b2, b3, b4⟩ := nb.score
  obtain ⟨c1, c2, c3, c4⟩ := nc.score
  have bl := nb.length
  have cl := nc.length
  rw [card_here (show ((0 : Nat) : Int) ≤ b.matchLength ∧ b.matchLength ≤ (25 : Nat) by omega),
    card_here (show ((0 : Nat) : Int) ≤ c.matchLength ∧ c.matchLength ≤ (25 : Nat) by omega),
    card_here (show ((0 : Nat) : Int) ≤ b.score.1 ∧ b.score.1 ≤ (25 : Nat) by omega),
    card_here (show ((0 : Nat) : Int) ≤ c.score.1 ∧ c.score.1 ≤ (25 : Nat) by omega),
    card_here (show ((0 : Nat) : Int) ≤ b.score.2 ∧ b.score.2 ≤ (25 : Nat) by omega),
    card_here (show ((0 : Nat) : Int) ≤ c.score.2 ∧ c.score.2 ≤ (25 : Nat) by omega)] at h
  simp only [List.append_assoc, List.cons_append, List.nil_append, List.cons.injEq, true_and, Ink.image, Op.image.injEq, and_true] at h
  obtain ⟨hwho, hlen, hcr, hs1, hs2, h⟩ := h
  replace hlen := here_inj (name := t!"score_") hlen
  replace hs1 := here_inj (name := t!"score_") hs1
  replace hs2 := here_inj (name := t!"score_") hs2
  have hcr : b.crawford = c.crawford := by
    cases h1 : b.crawford <;> cases h2 : c.crawford <;> rw [h1, h2] at hcr <;> first | rfl | (revert hcr; decide)
  have hwho : (actionWords b).1 = 0 ↔ (actionWords c).1 = 0 := by
    by_cases h1 : (actionWords b).1 = 0 <;> by_cases h2 : (actionWords c).1 = 0 <;> simp only [h1, h2, if_true, if_false] at hwho ⊢ <;>
      (revert hwho; decide)
  obtain ⟨p3, f3, h⟩ := safari_at_cut nb.cube nc.cube h (stops_cons rfl) (stops_cons rfl)
  obtain ⟨t0, h⟩ := safari_field_cut (stops_cons rfl) (stops_cons rfl) h
  simp only [List.cons.injEq, true_and] at h
  obtain ⟨p0, f0, h⟩ := safari_at_cut nb.cube nc.cube h (stops_cons rfl) (stops_cons rfl)
  simp only [List.cons.injEq, true_and] at h
  have n1 := cnt_within nb.chequers.1
  have n2 := cnt_within nb.chequers.2
  have n3 := cnt_within nc.chequers.1
  have n4 := cnt_within nc.chequers.2
  obtain ⟨g2, h⟩ := card_cut (n2 24) (n4 24) (by omega) h (safari_points_stop (fun _ _ _ => rfl) fun _ _ _ => rfl)
    (safari_points_stop (fun _ _ _ => rfl) fun _ _ _ => rfl)
  have nobar : ∀ (r : List Op) (s q : Int × Int) (f : Bool), ∀ name ∈ [t!"odd-white-", t!"even-white-", t!"odd-green-", t!"even-green-"],
      StopsAt (ofFamily name) (.image (safari t!"bar-none") s f q :: r) := by
    intro r s q f name hn
    simp only [List.mem_cons, List.not_mem_nil, or_false] at hn
    rcases hn with rfl | rfl | rfl | rfl <;> exact stops_cons rfl
  obtain ⟨hp, h⟩ := safari_points_cut (f := cnt b.position.1) (f' := cnt c.position.1) (g := fun i => cnt b.position.2 (23 - i))
    (g' := fun i => cnt c.position.2 (23 - i)) n1 (fun _ => n2 _) n3 (fun _ => n4 _)
    (nobar _ _ _ _) (nobar _ _ _ _) h
  simp only [List.cons.injEq, true_and] at h
  obtain ⟨g1, h⟩ := card_cut (n1 24) (n3 24) (by omega) h (stops_cons rfl) (stops_cons rfl)
  simp only [List.cons.injEq, true_and] at h
  obtain ⟨p1, f1, h⟩ := safari_at_cut nb.cube nc.cube h (stops_cons rfl) (stops_cons rfl)
  rw [← List.append_nil (k.safariField b 1), ← List.append_nil (k.safariField c 1)] at h
  obtain ⟨t1, -⟩ := safari_field_cut (fun _ h => by simp at h) (fun _ h => by simp at h) h
  obtain ⟨hturn, hz, hin⟩ := safari_kinds_inj sb.turns sc.turns
    (by rw [← safari_field_kind (k := k) db wb nb, ← safari_field_kind (k := k) dc wc nc, t0])
    (by rw [← safari_field_kind (k := k) db wb nb, ← safari_field_kind (k := k) dc wc nc, t1]) hwho
  have hpos : b.position = c.position := by
    refine Prod.ext (cnt_ext sb.you sc.you ?_) (cnt_ext sb.him sc.him ?_)
    · intro i hi
      by_cases h24 : i = 24
      · rw [h24]; exact g1
      · exact (hp i (List.mem_range.2 (by omega))).1
    · intro i hi
      by_cases h24 : i = 24
      · rw [h24]; exact g2
      · have := (hp (23 - i) (List.mem_range.2 (by omega))).2
        simpa only [show 23 - (23 - i) = i by omega] using this
  have hpend : Pending b ↔ Pending c := by
    rcases sb.owner with h | h | h <;> rcases sc.owner with h' | h' | h' <;> simp only [h, h', ne_eq] at p0 p1 p3 <;> simp_all
  have hown : ¬ Pending b → b.cubeOwner = c.cubeOwner := by
    intro hn
    have hn' : ¬ Pending c := fun h => hn (hpend.2 h)
    rcases sb.owner with h | h | h <;> rcases sc.owner with h' | h' | h' <;> simp only [h, h', ne_eq] at p0 p1 p3 <;> simp_all
  have tails : ∀ p, p = YOU ∨ p = HIM → (k.safariField b p).tail = (k.safariField c p).tail := by
    rintro p (rfl | rfl)
    · exact t0
    · exact t1
  have opp : ∃ p, (p = YOU ∨ p = HIM) ∧ b.onAction ≠ p := by
    rcases sb.turns.1 with h | h
    · exact ⟨1, .inr rfl, by rw [h]; decide⟩
    · exact ⟨0, .inl rfl, by rw [h]; decide⟩
  have hres : Resigning b ↔ Resigning c := by
    constructor
    · rintro ⟨h1, h2, h3⟩
      obtain ⟨i1, i2⟩ := hin h1
      exact ⟨hz.1 h1, by rw [← i1, ← hturn]; exact h2, by rw [← i2 h2]; exact h3⟩
    · rintro ⟨h1, h2, h3⟩
      obtain ⟨i1, i2⟩ := hin (hz.2 h1)
      have h2' : b.onInnerAction ≠ b.onAction := by rw [i1, hturn]; exact h2
      exact ⟨hz.2 h1, h2', by rw [i2 h2']; exact h3⟩
  refine ⟨hpos, Prod.ext hs1 hs2, hlen, hcr, hturn, ?_, fun h => (hin h).1, hres, ?_, hpend, hown, ?_, ?_⟩
  · by_cases rb : b.rolled = (0, 0)
    · rw [rb, hz.1 rb]
    · have rc : c.rolled ≠ (0, 0) := fun x => rb (hz.2 x)
      have t := tails _ sb.turns.1
      rcases db with x | ⟨d1, d2, d3, d4⟩
      · exact absurd x rb
      rcases dc with x | ⟨e1, e2, e3, e4⟩
      · exact absurd x rc
      unfold Ink.safariField at t
      rw [List.tail_cons, List.tail_cons, if_pos rb, if_pos rc, if_pos rfl, if_pos hturn.symm, card_here (by omega), card_here (by omega),
        card_here (by omega), card_here (by omega)] at t
      simp only [List.cons_append, List.nil_append, List.cons.injEq, Ink.image, Op.image.injEq, and_true] at t
      exact Prod.ext (here_inj (name := t!"die_") t.1) (here_inj (name := t!"die_") t.2)
  · intro hr
    have hr' := hres.1 hr
    obtain ⟨p, hp, hne⟩ := opp
    have t := tails p hp
    have hne' : c.onAction ≠ p := hturn ▸ hne
    have go : ∀ d : Board, Resigning d → d.onAction ≠ p → (k.safariField d p).tail.length = d.resignOffer.toNat := by
      rintro d ⟨h1, h2, h3⟩ h4
      unfold Ink.safariField
      rw [List.tail_cons, if_neg (fun x => x h1), if_neg (by simp [h2, h4]), h3, if_neg (by simp), List.length_map, List.length_range]
    have e := congrArg List.length t
    rw [go b hr hne, go c hr' hne'] at e
    have low : ∀ d : Board, Drawable d → Resigning d → 1 ≤ d.resignOffer := by
      rintro d hw ⟨h1, h2, h3⟩
      rcases hw with h | h | h | h
      · exact absurd h1 h
      · exact absurd h h2
      · rw [h3] at h; simp at h
      · exact h.1
    have := low b wb hr
    have := low c wc hr'
    omega
  · intro hn
    rcases sb.owner with h | h | h
    · exact f0 (by simp [hn, h])
    · exact f1 (by simp [hn, h])
    · exact f3 (by simp [hn, h])
  · intro hpb hr
    have hpc := hpend.1 hpb
    obtain ⟨p, hp, hne⟩ := opp
    have t := tails p hp
    have hne' : c.onAction ≠ p := hturn ▸ hne
    have go : ∀ d : Board, HasCards d → Pending d → d.rolled = (0, 0) → d.onAction ≠ p → (k.safariField d p).tail =
        [k.image (if p = 0 then 50 else 180) 100 25 25 false (safari (t!"cube_" ++ pyStr ((d.cube + 1 : Nat) : Int)))] := by
      intro d hd hp h1 h4
      have := hd.offered hp
      unfold Ink.safariField
      rw [List.tail_cons, if_neg (fun x => x h1), if_neg (by simp [hp.2, h4]), hp.1, if_pos rfl]
      unfold Ink.safariCube
      rw [card_here (by omega)]
    rw [go b nb hpb hr hne, go c nc hpc (hz.1 hr) hne'] at t
    simp only [List.cons.injEq, Ink.image, Op.image.injEq, and_true] at t
    have := here_inj (name := t!"cube_") t
    omega

end Bglib
