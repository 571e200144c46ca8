import Verif.Lemmas.Cards
import Verif.Lemmas.Theme.Safari
/-
The picture drawn with the style safari.
-/
namespace Bglib
open Spec Img

variable {rules : List Rule} {k : Ink} {anc : List Elem}

theorem case_draws {n : EName} {attrs : List (Text × Value)} {tab : List (Text × List (Text × Option Value))}
    {d : List (Text × Option Value)} {x : Text} {a : List Op} (h : leafCases rules n attrs tab d anc = true)
    (ha : ∀ e', e'.name = n → e'.data = [x] → looks (e' :: anc.reverse) ((tab.lookup x).getD d) = true →
      drawElement k.scale (e' :: anc.reverse) = .ok a) : Draws rules k anc (.node ⟨n, attrs, [x]⟩ []) a := by
  obtain ⟨e', h1, h2, h3, h4⟩ := leaf_cases h x
  have := node_draws h1 (ha e' h2 h3 h4) kids_nil
  rwa [List.append_nil] at this

theorem safari_ne (t : Text) : safari t ≠ [] := by
  unfold safari
  exact List.cons_ne_nil _ _

/-- Numbered images. -/
def cardLooks (rules : List Rule) (n : EName) (attrs : List (Text × Value)) (x y w h : Int) (f : Bool) (name : Text)
    (lo hi : Nat) (more : List (Text × Option Value)) (anc : List Elem) : Bool :=
  leafCases rules n attrs (numbered lo hi fun j => cardIs x y w h f (safari (name ++ decimal j)) ++
    (t!"background", none) :: more) blankIs anc

theorem any_card_draws {n : EName} {attrs : List (Text × Value)} {x y w h : Int} {f : Bool} {name : Text} {lo hi : Nat}
    {more : List (Text × Option Value)} (hl : cardLooks rules n attrs x y w h f name lo hi more anc = true) (m : Int)
    (hd : ∀ e' u, e'.name = n → e'.data = [pyStr m] → u ≠ [] → lo ≤ m →
      looks (e' :: anc.reverse) (cardIs x y w h f u ++ (t!"background", none) :: more) = true →
      drawElement k.scale (e' :: anc.reverse) = .ok [k.image x y w h f u]) :
    Draws rules k anc (.node ⟨n, attrs, [pyStr m]⟩ []) (k.card x y w h f name lo hi m) := by
  refine case_draws hl fun e' h1 h2 h3 => ?_
  rw [lookup_numbered] at h3
  unfold Ink.card
  by_cases hm : (lo : Int) ≤ m ∧ m ≤ hi
  · rw [if_pos hm] at h3 ⊢
    have : decimal m.toNat = pyStr m := by
      rw [← pyStr_nat, show ((m.toNat : Nat) : Int) = m by omega]
    rw [Option.getD_some, this] at h3
    exact hd e' _ h1 h2 (safari_ne _) hm.1 h3
  · rw [if_neg hm] at h3 ⊢
    exact draw_blank h3 k

theorem card_draws {n : EName} {attrs : List (Text × Value)} {x y w h : Int} {f : Bool} {name : Text} {lo hi : Nat}
    (hl : cardLooks rules n attrs x y w h f name lo hi [] anc = true) (hn : isCard n = true) (m : Int) :
    Draws rules k anc (.node ⟨n, attrs, [pyStr m]⟩ []) (k.card x y w h f name lo hi m) :=
  any_card_draws hl m fun _ _ h1 _ hu _ h3 => draw_card h3 hu (h1 ▸ hn) k

theorem die_card_draws {attrs : List (Text × Value)} {x y w h : Int} {f : Bool} {name : Text} {lo hi : Nat}
    (hl : cardLooks rules .die attrs x y w h f name lo hi [(t!"diestyle", strIs t!"dot")] anc = true) (m : Int) :
    Draws rules k anc (.node ⟨.die, attrs, [pyStr m]⟩ []) (k.card x y w h f name lo hi m) :=
  any_card_draws hl m fun _ _ h1 _ hu _ h3 => draw_die_card h3 hu h1 k

/-- The chequers of a player. -/
def pileLooks (rules : List Rule) (p : Int) (x y w h : Int) (f : Bool) (name : Text) (anc : List Elem) : Bool :=
  boxReady anc.reverse && cardLooks rules .chequer (playerAttr p) x y w h f name 1 15
    [(t!"max_count", some (.int 1)), (t!"hide_count", some (.bool true))] anc

theorem pile_card_draws {p x y w h : Int} {f : Bool} {name : Text} (hl : pileLooks rules p x y w h f name anc = true)
    (n : Int) : KidsDraw rules k anc (addedC p n) (k.card x y w h f name 1 15 n) := by
  unfold pileLooks at hl
  rw [Bool.and_eq_true] at hl
  unfold addedC
  by_cases hn : n = 0
  · subst hn
    rw [if_pos rfl]
    unfold Ink.card
    rw [if_neg (by omega)]
    exact kids_nil
  · rw [if_neg hn]
    exact kids_one (any_card_draws hl.2 n fun _ _ h1 h2 hu h0 h3 =>
      draw_chequer_card h3 hu hl.1 h1 h2 h0 k)

/-- Chequers that are not seen. -/
def hiddenLooks (rules : List Rule) (p : Int) (anc : List Elem) : Bool :=
  leafCases rules .chequer (playerAttr p) (numbered 1 15 fun _ => blankIs) blankIs anc

theorem hidden_draws {p : Int} (hl : hiddenLooks rules p anc = true) (n : Int) :
    KidsDraw rules k anc (addedC p n) [] := by
  unfold addedC
  by_cases hn : n = 0
  · rw [if_pos hn]; exact kids_nil
  · rw [if_neg hn]
    refine kids_one (case_draws hl fun e' h1 h2 h3 => ?_)
    rw [lookup_numbered] at h3
    refine draw_blank ?_ k
    split at h3 <;> exact h3

def safariCubeLooks (rules : List Rule) (x y : Int) (anc : List Elem) : Bool :=
  cardLooks rules .cube [] x y 25 25 false t!"cube_" 0 5 [] anc

theorem safari_cube_draws {x y : Int} (h : safariCubeLooks rules x y anc = true) (n : Nat) :
    Draws rules k anc (cubeLeaf n) (k.safariCube x y n) := by
  have := card_draws (k := k) h rfl (n : Int)
  rw [pyStr_nat] at this
  exact this

def chipIs (x : Int) : List (Text × Option Value) :=
  boxIs x 93 25 25 ++ [(t!"image", strIs t!"bglib/image/resource/safari/chip.png"), (t!"background", none),
    (t!"x_offset", some (.int 20)), (t!"y_offset", some (.int 0))]

theorem chips_line (src : Text) (size : Int × Int) (dx : Int) (n : Nat) (p : Int × Int) :
    chips src size (dx, 0) n p = (List.range n).map fun (j : Nat) => Op.image src size false (p.1 + (j + 1) * dx, p.2) := by
  induction n generalizing p with
  | zero => rfl
  | succ n ih =>
    rw [chips, ih, List.range_succ_eq_map, List.map_cons, List.map_map]
    refine List.cons_eq_cons.2 ⟨by simp, ?_⟩
    apply List.map_congr_left
    intro j _
    simp only [Function.comp_apply, Nat.succ_eq_add_one, Int.natCast_add, Int.add_mul, Int.natCast_one, Int.add_zero, Op.image.injEq,
      Prod.mk.injEq, true_and, and_true]
    omega

theorem draw_chips {e : Elem} {up : List Elem} {x n : Int} (hl : looks (e :: up) (chipIs x) = true)
    (hn : e.name = .resign) (hd : e.data = [pyStr n]) (k : Ink) (hz : k.scale 0 = 0) :
    drawElement k.scale (e :: up) = .ok ((List.range n.toNat).map fun (j : Nat) =>
      Op.image t!"bglib/image/resource/safari/chip.png" (k.scale 25, k.scale 25) false
        (k.scale x + (j + 1) * k.scale 20, k.scale 93)) := by
  simp only [chipIs, looks_append, looks_cons] at hl
  obtain ⟨hb, hi, hg, hx, hy, -⟩ := hl
  refine element_of (a := []) (back_none hg k) ?_
  rw [own_image hi]
  have : drawElem k.scale (e :: up) = drawResign k.scale (e :: up) := by
    unfold drawElem; dsimp only
    rw [hn]
  rw [this]
  unfold drawResign
  simp only [bind, Except.bind, pure, Except.pure, box_is hb, truthy_of hi (List.cons_ne_nil _ _), int_of hx,
    int_of hy, firstInt_of hd, hz, chips_line]

def safariFieldLooks (rules : List Rule) (p : Int) (anc : List Elem) : Bool :=
  cardLooks rules .die [(t!"id", .str t!"right")] (if p = 0 then 204 else 71) 95 16 16 false t!"die_" 1 6
    [(t!"diestyle", strIs t!"dot")] anc &&
  cardLooks rules .die [(t!"id", .str t!"left")] (if p = 0 then 176 else 43) 95 16 16 false t!"die_" 1 6
    [(t!"diestyle", strIs t!"dot")] anc &&
  safariCubeLooks rules (if p = 0 then 50 else 180) 100 anc &&
  leafLooks rules .resign [] (chipIs (if p = 0 then 157 else 25)) anc

def safariMatchLooks (rules : List Rule) (anc : List Elem) : Bool :=
  leafLooks rules .action (playerAttr YOU)
    (cardIs 0 103 25 26 false (safari t!"action_white") ++ [(t!"background", strIs t!"white")]) anc &&
  leafLooks rules .action (playerAttr HIM)
    (cardIs 0 103 25 26 false (safari t!"action_green") ++ [(t!"background", strIs t!"white")]) anc &&
  cardLooks rules .length [] 316 93 25 46 false t!"score_" 0 25 [] anc &&
  leafCases rules .crawford []
    [(t!"True", cardIs 291 93 25 46 false (safari t!"crawford") ++ [(t!"background", none)]),
     (t!"False", cardIs 291 93 25 46 false (safari t!"score_template") ++ [(t!"background", none)])] blankIs anc &&
  cardLooks rules .score (playerAttr YOU) 291 139 50 93 false t!"score_" 0 25 [] anc &&
  cardLooks rules .score (playerAttr HIM) 291 0 50 93 false t!"score_" 0 25 [] anc

/-- A box with an image. -/
def imageIs (x y w h : Int) (f : Bool) (name : Text) : List (Text × Option Value) :=
  cardIs x y w h f (safari name) ++ [(t!"background", none)]

def safariPointLooks (rules : List Rule) (i : Nat) (anc : List Elem) : Bool :=
  innerLooks rules (newPoint i).elem
    (imageIs (column i) (if i ≤ 12 then 139 else 5) 18 88 (decide (12 < i)) ((if i % 2 = 1 then t!"odd" else t!"even") ++ t!"-none"))
    (fun a =>
      pileLooks rules YOU (column i) (if i ≤ 12 then 139 else 5) 18 88 (decide (12 < i))
        ((if i % 2 = 1 then t!"odd" else t!"even") ++ t!"-white-") a &&
      pileLooks rules HIM (column i) (if i ≤ 12 then 139 else 5) 18 88 (decide (12 < i))
        ((if i % 2 = 1 then t!"odd" else t!"even") ++ t!"-green-") a) anc

/-- What is checked below the element of the position. -/
def underSafari (rules : List Rule) (f : List Elem → Bool) : Bool :=
  innerLooks rules ⟨.board, [], []⟩ (plainIs 0 0 341 232 t!"red")
    (innerLooks rules ⟨.position, [], []⟩ (imageIs 0 0 291 232 false t!"position") f) []

def safariPlacesLooks (rules : List Rule) (anc : List Elem) : Bool :=
  innerLooks rules ⟨.topFrame, [], []⟩ blankIs (fun _ => true) anc &&
  innerLooks rules ⟨.bottomFrame, [], []⟩ blankIs (fun _ => true) anc &&
  innerLooks rules ⟨.cubeholder, [], []⟩ (imageIs 266 101 25 30 false t!"cubeholder") (safariCubeLooks rules 266 105) anc &&
  innerLooks rules ⟨.field, playerAttr YOU, []⟩ (imageIs 158 93 108 46 false t!"field") (safariFieldLooks rules YOU) anc &&
  innerLooks rules ⟨.field, playerAttr HIM, []⟩ (imageIs 25 93 108 46 false t!"field") (safariFieldLooks rules HIM) anc &&
  innerLooks rules ⟨.home, playerAttr YOU, []⟩ (imageIs 266 131 25 101 false t!"your-home")
    (fun a => hiddenLooks rules YOU a && safariCubeLooks rules 266 197 a) anc &&
  innerLooks rules ⟨.home, playerAttr HIM, []⟩ (imageIs 266 0 25 101 false t!"his-home")
    (fun a => hiddenLooks rules HIM a && safariCubeLooks rules 266 5 a) anc

def safariBarsLooks (rules : List Rule) (anc : List Elem) : Bool :=
  innerLooks rules ⟨.bar, playerAttr YOU, []⟩ (imageIs 133 116 25 111 false t!"bar-none")
    (pileLooks rules YOU 133 116 25 111 false t!"bar-white-") anc &&
  innerLooks rules ⟨.bar, playerAttr HIM, []⟩ (imageIs 133 5 25 111 false t!"bar-none")
    (pileLooks rules HIM 133 5 25 111 false t!"bar-green-") anc

theorem inner_and {e : Elem} {l : List (Text × Option Value)} {f g : List Elem → Bool}
    (hf : innerLooks rules e l f anc = true) (hg : innerLooks rules e l g anc = true) :
    innerLooks rules e l (fun a => f a && g a) anc = true := by
  unfold innerLooks at hf hg ⊢
  cases h : applyRules anc e (rules.filter (concerns e.name)) with
  | error x => rw [h] at hf; simp at hf
  | ok e' =>
    rw [h] at hf hg
    simp only [Bool.and_eq_true] at hf hg ⊢
    exact ⟨hf.1, hf.2, hg.2⟩

theorem inner_mono {e : Elem} {l : List (Text × Option Value)} {f g : List Elem → Bool}
    (h : ∀ a, f a = true → g a = true) (hf : innerLooks rules e l f anc = true) :
    innerLooks rules e l g anc = true := by
  unfold innerLooks at hf ⊢
  cases hr : applyRules anc e (rules.filter (concerns e.name)) with
  | error x => rw [hr] at hf; simp at hf
  | ok e' =>
    rw [hr] at hf
    simp only [Bool.and_eq_true] at hf ⊢
    exact ⟨hf.1, h _ hf.2⟩

theorem under_and {f g : List Elem → Bool} (hf : underSafari rules f = true) (hg : underSafari rules g = true) :
    underSafari rules (fun a => f a && g a) = true := by
  unfold underSafari at hf hg ⊢
  refine inner_mono (fun a h => ?_) (inner_and hf hg)
  rw [Bool.and_eq_true] at h
  exact inner_and h.1 h.2

theorem under_mono {f g : List Elem → Bool} (h : ∀ a, f a = true → g a = true) (hf : underSafari rules f = true) :
    underSafari rules g = true :=
  inner_mono (fun _ => inner_mono h) hf


theorem safari_sheet : innerLooks Safari.rules ⟨.board, [], []⟩ (plainIs 0 0 341 232 t!"red")
    (innerLooks Safari.rules ⟨.match, [], []⟩ blankIs (safariMatchLooks Safari.rules)) [] = true := by decide +kernel

theorem safari_places : underSafari Safari.rules (safariPlacesLooks Safari.rules) = true := by decide +kernel

theorem safari_bars : underSafari Safari.rules (safariBarsLooks Safari.rules) = true := by decide +kernel

private theorem point_1 : underSafari Safari.rules (safariPointLooks Safari.rules 1) = true := by decide +kernel

private theorem point_2 : underSafari Safari.rules (safariPointLooks Safari.rules 2) = true := by decide +kernel

private theorem point_3 : underSafari Safari.rules (safariPointLooks Safari.rules 3) = true := by decide +kernel

private theorem point_4 : underSafari Safari.rules (safariPointLooks Safari.rules 4) = true := by decide +kernel

private theorem point_5 : underSafari Safari.rules (safariPointLooks Safari.rules 5) = true := by decide +kernel

private theorem point_6 : underSafari Safari.rules (safariPointLooks Safari.rules 6) = true := by decide +kernel

private theorem point_7 : underSafari Safari.rules (safariPointLooks Safari.rules 7) = true := by decide +kernel

private theorem point_8 : underSafari Safari.rules (safariPointLooks Safari.rules 8) = true := by decide +kernel

private theorem point_9 : underSafari Safari.rules (safariPointLooks Safari.rules 9) = true := by decide +kernel

private theorem point_10 : underSafari Safari.rules (safariPointLooks Safari.rules 10) = true := by decide +kernel

private theorem point_11 : underSafari Safari.rules (safariPointLooks Safari.rules 11) = true := by decide +kernel

private theorem point_12 : underSafari Safari.rules (safariPointLooks Safari.rules 12) = true := by decide +kernel

private theorem point_13 : underSafari Safari.rules (safariPointLooks Safari.rules 13) = true := by decide +kernel

private theorem point_14 : underSafari Safari.rules (safariPointLooks Safari.rules 14) = true := by decide +kernel

private theorem point_15 : underSafari Safari.rules (safariPointLooks Safari.rules 15) = true := by decide +kernel

private theorem point_16 : underSafari Safari.rules (safariPointLooks Safari.rules 16) = true := by decide +kernel

private theorem point_17 : underSafari Safari.rules (safariPointLooks Safari.rules 17) = true := by decide +kernel

private theorem point_18 : underSafari Safari.rules (safariPointLooks Safari.rules 18) = true := by decide +kernel

private theorem point_19 : underSafari Safari.rules (safariPointLooks Safari.rules 19) = true := by decide +kernel

private theorem point_20 : underSafari Safari.rules (safariPointLooks Safari.rules 20) = true := by decide +kernel

private theorem point_21 : underSafari Safari.rules (safariPointLooks Safari.rules 21) = true := by decide +kernel

private theorem point_22 : underSafari Safari.rules (safariPointLooks Safari.rules 22) = true := by decide +kernel

private theorem point_23 : underSafari Safari.rules (safariPointLooks Safari.rules 23) = true := by decide +kernel

private theorem point_24 : underSafari Safari.rules (safariPointLooks Safari.rules 24) = true := by decide +kernel

theorem safari_points (i : Nat) (h : i ∈ List.range 24) :
    underSafari Safari.rules (safariPointLooks Safari.rules (i + 1)) = true := by
  rw [List.mem_range] at h
  match i with
  | 0 => exact point_1
  | 1 => exact point_2
  | 2 => exact point_3
  | 3 => exact point_4
  | 4 => exact point_5
  | 5 => exact point_6
  | 6 => exact point_7
  | 7 => exact point_8
  | 8 => exact point_9
  | 9 => exact point_10
  | 10 => exact point_11
  | 11 => exact point_12
  | 12 => exact point_13
  | 13 => exact point_14
  | 14 => exact point_15
  | 15 => exact point_16
  | 16 => exact point_17
  | 17 => exact point_18
  | 18 => exact point_19
  | 19 => exact point_20
  | 20 => exact point_21
  | 21 => exact point_22
  | 22 => exact point_23
  | 23 => exact point_24
  | j + 24 => omega

theorem under_all {l : List Nat} {f : Nat → List Elem → Bool} (h0 : underSafari rules (fun _ => true) = true)
    (h : ∀ i ∈ l, underSafari rules (f i) = true) : underSafari rules (fun a => l.all fun i => f i a) = true := by
  induction l with
  | nil => exact h0
  | cons i l ih =>
    exact under_and (h i List.mem_cons_self) (ih fun j hj => h j (List.mem_cons_of_mem _ hj))

/-- Everything that is below the position. -/
theorem safari_position : underSafari Safari.rules (fun a => safariPlacesLooks Safari.rules a && (safariBarsLooks Safari.rules a &&
    (List.range 24).all fun i => safariPointLooks Safari.rules (i + 1) a)) = true :=
  under_and safari_places (under_and safari_bars
    (under_all (f := fun i => safariPointLooks Safari.rules (i + 1)) (under_mono (fun _ _ => rfl) safari_bars) safari_points))

end Bglib
