import Verif.Spec.Files
import Verif.Lemmas.Device
import Verif.Lemmas.Mag
/-
Painting with the files there are.
-/
namespace Bglib
open Spec Img

/-- The files of an operation are there. -/
def CanPaint : Op → Prop
  | .text _ _ _ f _ => f ∈ fontFiles
  | .image u _ _ _ => u ∈ imageFiles
  | _ => True

theorem tryFonts_loads {L : Library} {u : Text} (hu : u ≠ []) (hl : ∀ n, L.truetype u n = .ok ()) (size : Int × Int) (s : Text) (n : Nat)
    (k : Int) : ∃ r, (tryFonts L u size s n k []).2 = .ok r := by
  rcases tryFonts_spec hu size s n k (fun m _ _ => hl m) with ⟨m, -, -, -, -, h⟩ | ⟨-, h⟩
  · exact ⟨_, h⟩
  · exact ⟨_, h⟩

theorem fontFiles_ne {u : Text} (h : u ∈ fontFiles) : u ≠ [] := by
  rintro rfl
  exact absurd h (by decide)

theorem paint_can {L : Library} (hL : Loads L) {o : Op} (h : CanPaint o) : ∃ l, (paintOp L o []).2 = .ok l := by
  cases o with
  | text pos size s u fill =>
    have hu := fontFiles_ne h
    obtain ⟨r, hr⟩ : ∃ r, (calcFontSize L u size s []).2 = .ok r :=
      tryFonts_loads hu (hL.font u h) size s (size.2 - 8).toNat size.2
    have st : ∀ r : Option Int × (Int × Int), Steady L ((fun r => match r.1 with
        | none => Dev.ok []
        | some fsize => (loadFont L u fsize).andThen fun f =>
          Dev.ok [.text (pos.1 + (size.1 - r.2.1) / 2, pos.2 + (size.2 - r.2.2) / 2) s f fill] : _ → Dev (List Paint)) r) := by
      intro r
      dsimp only
      split
      · exact steady_ok _
      · exact steady_andThen (steady_loadFont _ _ _) fun _ => steady_ok _
    have e : (paintOp L (.text pos size s u fill) []).2 = _ := andThen_res (steady_tryFonts L u size s (size.2 - 8).toNat size.2) st
    rw [e, hr]
    dsimp only
    obtain ⟨r1, r2⟩ := r
    cases r1 with
    | none => exact ⟨_, rfl⟩
    | some n =>
      dsimp only
      rw [andThen_res (steady_loadFont L u _) fun _ => steady_ok _, loadFont_res hu, hL.font u h]
      exact ⟨_, rfl⟩
  | image u size flip pos =>
    obtain ⟨alpha, ha⟩ := hL.image u h
    have hr := hL.resize u h size
    have hi : (loadImage L u size flip []).2 = .ok ⟨u, size, flip, alpha⟩ := by
      unfold loadImage
      simp only [List.lookup_nil, ha, hr]
    have st : ∀ p : Pict, Steady L (pasteImage p pos size) := by
      intro p
      unfold pasteImage
      split
      · exact steady_fail _
      · exact steady_ok _
    have e : (paintOp L (.image u size flip pos) []).2 = _ := andThen_res (steady_loadImage L u size flip) st
    rw [e, hi]
    dsimp only
    unfold pasteImage
    rw [if_neg (by simp)]
    exact ⟨_, rfl⟩
  | ellipse => exact ⟨_, rfl⟩
  | polygon => exact ⟨_, rfl⟩
  | rect => exact ⟨_, rfl⟩

theorem paintAll_can {L : Library} (hL : Loads L) {ops : List Op} (h : ∀ o ∈ ops, CanPaint o) :
    ∃ l, (paintAll L ops []).2 = .ok l := by
  induction ops with
  | nil => exact ⟨_, rfl⟩
  | cons o os ih =>
    obtain ⟨a, ha⟩ := paint_can hL (h o List.mem_cons_self)
    obtain ⟨b, hb⟩ := ih fun x hx => h x (List.mem_cons_of_mem _ hx)
    unfold paintAll
    rw [andThen_res (steady_paintOp L o) fun a => steady_andThen (steady_paintAll L os) fun b => steady_ok _, ha]
    dsimp only
    rw [andThen_res (steady_paintAll L os) fun b => steady_ok _, hb]
    exact ⟨_, rfl⟩

/-- An operation with a file that is not there fails, and the picture with it. -/
theorem paintAll_cannot {L : Library} {ops : List Op} {o : Op} (ho : o ∈ ops) (h : ∀ l, (paintOp L o []).2 ≠ .ok l) (l : List Paint) :
    (paintAll L ops []).2 ≠ .ok l := by
  induction ops generalizing l with
  | nil => cases ho
  | cons x os ih =>
    intro hx
    unfold paintAll at hx
    obtain ⟨a, h1, h2⟩ := andThen_ok (steady_paintOp L x) (fun a => steady_andThen (steady_paintAll L os) fun b => steady_ok _) hx
    obtain ⟨b, h3, h4⟩ := andThen_ok (steady_paintAll L os) (fun b => steady_ok _) h2
    rcases List.mem_cons.1 ho with rfl | ho
    · exact h a h1
    · exact ih ho b h3

theorem text_cannot {L : Library} {u : Text} (hu : ∀ n, ∃ e, L.truetype u n = .error e) (hne : u ≠ []) (pos size : Int × Int) (s fill : Text)
    (l : List Paint) : (paintOp L (.text pos size s u fill) []).2 ≠ .ok l := by
  intro h
  have h' : (drawText L pos size s u fill []).2 = .ok l := h
  unfold drawText at h'
  obtain ⟨r, h1, -⟩ := andThen_ok (steady_tryFonts L u size s (size.2 - 8).toNat size.2) (fun r => by
    split
    · exact steady_ok _
    · exact steady_andThen (steady_loadFont _ _ _) fun _ => steady_ok _) h'
  rw [tryFonts] at h1
  obtain ⟨f, h2, -⟩ := andThen_ok (steady_loadFont L u size.2) (fun f => by
    dsimp only
    split
    · split
      · exact steady_ok _
      · exact steady_tryFonts _ _ _ _ _ _
    · exact steady_ok _) h1
  rw [loadFont_res hne] at h2
  obtain ⟨e, he⟩ := hu size.2
  rw [he] at h2
  cases h2

theorem image_cannot {L : Library} {u : Text} (hu : ∃ e, L.open_ u = .error e) (pos size : Int × Int) (flip : Bool)
    (l : List Paint) : (paintOp L (.image u size flip pos) []).2 ≠ .ok l := by
  intro h
  obtain ⟨p, h1, -⟩ := andThen_ok (steady_loadImage L u size flip) (fun p => by
    unfold pasteImage
    split
    · exact steady_fail _
    · exact steady_ok _) (show ((loadImage L u size flip).andThen (fun p => pasteImage p pos size) []).2 = .ok l from h)
  unfold loadImage at h1
  obtain ⟨e, he⟩ := hu
  simp only [List.lookup_nil, he] at h1
  cases h1

/-- The operations of a drawing are those `drawBoard` gives at some magnification. -/
theorem opsSized_board {rules : List Rule} {size : Int × Int} {b : Board} {ops : List Op} (h : opsSized rules size b = .ok ops) :
    ∃ scale : Int → Int, scale 0 = 0 ∧ drawBoard rules scale b = resultOf ops := by
  unfold opsSized at h
  unfold drawBoard
  cases e1 : ETree.create.set b with
  | error x => rw [e1] at h; cases h
  | ok t =>
    rw [e1] at h
    dsimp only at h ⊢
    cases e2 : t.board.styled rules [] with
    | error x => rw [e2] at h; cases h
    | ok t' =>
      rw [e2] at h
      dsimp only at h ⊢
      cases e3 : treeMag t' size with
      | error x => rw [e3] at h; cases h
      | ok m =>
        rw [e3] at h
        dsimp only at h ⊢
        exact ⟨applyMag m, applyMag_zero m, by rw [h]⟩

theorem resultOf_ok {ops l : List Op} (h : resultOf ops = .ok l) : ops = l := by
  unfold resultOf at h
  split at h
  · cases h
  · exact Except.ok.inj h

theorem drawOn_ops {L : Library} {rules : List Rule} {size : Int × Int} {b : Board} {ops : List Op} (h : opsSized rules size b = .ok ops) :
    drawOn L rules size b = paintAll L ops := by
  unfold drawOn
  rw [h]

/-! ### The files of the pictures -/

def AllCan (l : List Op) : Prop := ∀ o ∈ l, CanPaint o

theorem can_append {a b : List Op} (ha : AllCan a) (hb : AllCan b) : AllCan (a ++ b) := by
  intro o ho
  rcases List.mem_append.1 ho with h | h
  · exact ha o h
  · exact hb o h

theorem can_cons {o : Op} {l : List Op} (ho : CanPaint o) (hl : AllCan l) : AllCan (o :: l) := by
  intro x hx
  rcases List.mem_cons.1 hx with rfl | h
  · exact ho
  · exact hl x h

theorem can_nil : AllCan [] := fun _ h => absurd h (by simp)

theorem can_if {c : Prop} [Decidable c] {a b : List Op} (ha : c → AllCan a) (hb : ¬ c → AllCan b) : AllCan (if c then a else b) := by
  split
  · exact ha ‹_›
  · exact hb ‹_›

theorem can_flatMap {α : Type} {l : List α} {f : α → List Op} (h : ∀ x ∈ l, AllCan (f x)) : AllCan (l.flatMap f) := by
  intro o ho
  obtain ⟨x, hx, ho⟩ := List.mem_flatMap.1 ho
  exact h x hx o ho

theorem can_map {α : Type} {l : List α} {f : α → Op} (h : ∀ x ∈ l, CanPaint (f x)) : AllCan (l.map f) := by
  intro o ho
  obtain ⟨x, hx, rfl⟩ := List.mem_map.1 ho
  exact h x hx

/-! #### The plain styles -/

theorem can_cube (k : Ink) {pal : Palette} (hp : pal.font ∈ fontFiles) (x y : Int) (n : Nat) : AllCan (k.cube pal x y n) :=
  can_cons trivial (can_cons hp can_nil)

theorem can_pile (k : Ink) {font : Text} (hp : font ∈ fontFiles) (x y dy max : Int) (c : Text) (n : Int) :
    AllCan (k.pile x y dy max font c n) := by
  unfold Ink.pile
  exact can_append (can_map fun _ _ => trivial) (can_if (fun _ => can_cons hp can_nil) fun _ => can_nil)

theorem can_die (k : Ink) (x y : Int) (c ink : Text) (n : Int) : AllCan (k.die x y c ink n) :=
  can_cons trivial (can_map fun _ _ => trivial)

theorem can_field (k : Ink) {pal : Palette} (hp : pal.font ∈ fontFiles) (b : Board) (p : Int) : AllCan (k.field pal b p) := by
  unfold Ink.field
  refine can_cons hp (can_if (fun _ => can_if (fun _ => can_append (can_die _ _ _ _ _ _) (can_die _ _ _ _ _ _)) fun _ => can_nil)
    fun _ => can_if (fun _ => can_nil) fun _ => can_if (fun _ => can_cube k hp _ _ _) fun _ => can_cons hp can_nil)

theorem can_cubeAt (k : Ink) {pal : Palette} (hp : pal.font ∈ fontFiles) (b : Board) (o : Int) : AllCan (k.cubeAt pal b o) := by
  unfold Ink.cubeAt
  exact can_if (fun _ => can_nil) fun _ => can_if (fun _ => can_cube k hp _ _ _) fun _ => can_if (fun _ => can_cube k hp _ _ _)
    fun _ => can_cube k hp _ _ _

theorem can_point (k : Ink) {pal : Palette} (hp : pal.font ∈ fontFiles) (i : Nat) (y h : Int) : AllCan (k.point pal i y h) := by
  unfold Ink.point
  have pile : ∀ (c : Text) (n : Int), AllCan (if i ≤ 12 then k.pile (column i) 210 (-18) 5 pal.font c n else k.pile (column i) 6 18 5 pal.font c n) :=
    fun c n => can_if (fun _ => can_pile k hp _ _ _ _ _ _) fun _ => can_pile k hp _ _ _ _ _ _
  refine can_cons ?_ (can_if (fun _ => can_append (pile _ _) (pile _ _)) fun _ => can_append (pile _ _) (pile _ _))
  unfold Ink.triangle
  dsimp only
  split <;> trivial

theorem can_picture (k : Ink) {pal : Palette} (hp : pal.font ∈ fontFiles) (b : Board) : AllCan (k.picture pal b) := by
  unfold Ink.picture
  repeat' first
    | exact can_nil
    | exact hp
    | exact trivial
    | exact can_pile k hp _ _ _ _ _ _
    | exact can_cubeAt k hp _ _
    | exact can_field k hp _ _
    | exact can_flatMap fun _ _ => can_point k hp _ _ _
    | refine can_append ?_ ?_
    | refine can_cons ?_ ?_
    | refine can_if (fun _ => ?_) (fun _ => ?_)

/-! #### safari -/

theorem can_card (k : Ink) (x y w h : Int) (flip : Bool) (name : Text) (lo hi : Nat) (n : Int)
    (hf : ∀ m : Nat, lo ≤ m → m ≤ hi → m = n → safari (name ++ pyStr m) ∈ imageFiles) : AllCan (k.card x y w h flip name lo hi n) := by
  unfold Ink.card
  refine can_if (fun hn => can_cons ?_ can_nil) fun _ => can_nil
  have e : ((n.toNat : Nat) : Int) = n := by omega
  have := hf n.toNat (by omega) (by omega) e
  rw [e] at this
  exact this

theorem files_cube : ∀ m ≤ 5, safari (t!"cube_" ++ pyStr (m : Nat)) ∈ imageFiles := by decide +kernel

theorem files_die : ∀ m ≤ 6, 1 ≤ m → safari (t!"die_" ++ pyStr (m : Nat)) ∈ imageFiles := by decide +kernel

theorem files_score : ∀ m ≤ 25, safari (t!"score_" ++ pyStr (m : Nat)) ∈ imageFiles := by decide +kernel

theorem files_bar : ∀ m ≤ 7, 1 ≤ m → safari (t!"bar-green-" ++ pyStr (m : Nat)) ∈ imageFiles ∧
    safari (t!"bar-white-" ++ pyStr (m : Nat)) ∈ imageFiles := by decide +kernel

theorem files_point : ∀ m ≤ 15, 1 ≤ m → ∀ p ∈ [t!"odd", t!"even"], safari (p ++ t!"-white-" ++ pyStr (m : Nat)) ∈ imageFiles ∧
    safari (p ++ t!"-green-" ++ pyStr (m : Nat)) ∈ imageFiles := by decide +kernel

theorem files_plain : ∀ f ∈ [t!"action_white", t!"action_green", t!"crawford", t!"score_template", t!"position", t!"cubeholder", t!"your-home",
    t!"bar-none", t!"his-home", t!"field", t!"odd-none", t!"even-none"], safari f ∈ imageFiles := by decide +kernel

theorem files_chip : t!"bglib/image/resource/safari/chip.png" ∈ imageFiles := List.mem_cons_self

theorem can_safari_cube (k : Ink) (x y : Int) (n : Nat) : AllCan (k.safariCube x y n) :=
  can_card k _ _ _ _ _ _ _ _ _ fun m _ h _ => files_cube m h

theorem can_safari_cubeAt (k : Ink) (b : Board) (o : Int) : AllCan (k.safariCubeAt b o) :=
  can_if (fun _ => can_nil) fun _ => can_safari_cube k _ _ _

theorem can_safari_field (k : Ink) (b : Board) (p : Int) : AllCan (k.safariField b p) := by
  unfold Ink.safariField
  refine can_cons (files_plain _ (by simp)) (can_if (fun _ => can_if (fun _ => can_append ?_ ?_) fun _ => can_nil)
    fun _ => can_if (fun _ => can_nil) fun _ => can_if (fun _ => can_safari_cube k _ _ _) fun _ => can_map fun _ _ => files_chip)
  · exact can_card k _ _ _ _ _ _ _ _ _ fun m h1 h2 _ => files_die m h2 h1
  · exact can_card k _ _ _ _ _ _ _ _ _ fun m h1 h2 _ => files_die m h2 h1

theorem can_safari_point (k : Ink) (i : Nat) (y h : Int) : AllCan (k.safariPoint i y h) := by
  unfold Ink.safariPoint
  have hp : (if i % 2 = 1 then t!"odd" else t!"even") ∈ [t!"odd", t!"even"] := by split <;> simp
  have hn : safari ((if i % 2 = 1 then t!"odd" else t!"even") ++ t!"-none") ∈ imageFiles := by
    split
    · exact files_plain t!"odd-none" (by simp)
    · exact files_plain t!"even-none" (by simp)
  generalize (if i % 2 = 1 then t!"odd" else t!"even") = place at *
  have hw := can_card k (column i) (if i ≤ 12 then 139 else 5) 18 88 (decide (12 < i)) (place ++ t!"-white-") 1 15 y
    fun m h1 h2 _ => (files_point m h2 h1 place hp).1
  have hg := can_card k (column i) (if i ≤ 12 then 139 else 5) 18 88 (decide (12 < i)) (place ++ t!"-green-") 1 15 h
    fun m h1 h2 _ => (files_point m h2 h1 place hp).2
  exact can_cons hn (can_if (fun _ => can_append hw hg) fun _ => can_append hg hw)

theorem can_image (k : Ink) {x y w h : Int} {flip : Bool} {f : Text} (hf : f ∈ imageFiles) : CanPaint (k.image x y w h flip f) := hf

theorem can_rect (k : Ink) {x y w h : Int} {c : Text} : CanPaint (k.rect x y w h c) := trivial

theorem can_safari (k : Ink) (b : Board) (h1 : cnt b.position.1 24 ≤ 7) (h2 : cnt b.position.2 24 ≤ 7) : AllCan (k.safariPicture b) := by
  have hact : safari (if (actionWords b).1 = 0 then t!"action_white" else t!"action_green") ∈ imageFiles := by
    split
    · exact files_plain _ (by simp)
    · exact files_plain _ (by simp)
  have hcr : safari (if b.crawford then t!"crawford" else t!"score_template") ∈ imageFiles := by
    split
    · exact files_plain _ (by simp)
    · exact files_plain _ (by simp)
  have score : ∀ x y w h f n, AllCan (k.card x y w h f t!"score_" 0 25 n) :=
    fun x y w h f n => can_card k _ _ _ _ _ _ _ _ _ fun m _ h _ => files_score m h
  have green : ∀ x y w h f, AllCan (k.card x y w h f t!"bar-green-" 1 15 (cnt b.position.2 24)) :=
    fun x y w h f => can_card k _ _ _ _ _ _ _ _ _ fun m h3 _ h5 => (files_bar m (by omega) h3).1
  have white : ∀ x y w h f, AllCan (k.card x y w h f t!"bar-white-" 1 15 (cnt b.position.1 24)) :=
    fun x y w h f => can_card k _ _ _ _ _ _ _ _ _ fun m h3 _ h5 => (files_bar m (by omega) h3).2
  unfold Ink.safariPicture
  have plain := files_plain
  simp only [List.mem_cons, List.not_mem_nil, or_false, forall_eq_or_imp, forall_eq] at plain
  obtain ⟨-, -, -, -, p1, p2, p3, p4, p5, -⟩ := plain
  repeat' with_reducible first
    | exact can_nil
    | exact hact
    | exact hcr
    | exact p1
    | exact p2
    | exact p3
    | exact p4
    | exact p5
    | exact score _ _ _ _ _ _
    | exact green _ _ _ _ _
    | exact white _ _ _ _ _
    | exact can_safari_cubeAt k _ _
    | exact can_safari_field k _ _
    | exact can_flatMap fun _ _ => can_safari_point k _ _ _
    | exact can_rect k
    | refine can_image k ?_
    | refine can_append ?_ ?_
    | refine can_cons ?_ ?_

theorem no_bar : ∀ m ≤ 15, 8 ≤ m → ∀ c ∈ [t!"bar-green-", t!"bar-white-"], safari (c ++ pyStr (m : Nat)) ∉ imageFiles ∧
    '/' ∉ c ++ pyStr (m : Nat) ++ t!".jpg" := by decide +kernel

theorem safari_in (t : Text) (h : '/' ∉ t ++ t!".jpg") : InStyle (safari t) :=
  ⟨(Safari.path, Safari.lines), by simp [shipped], t ++ t!".jpg", h, rfl⟩

theorem card_mem (k : Ink) (x y w h : Int) (flip : Bool) (name : Text) (n : Int) (h1 : 8 ≤ n) (h2 : n ≤ 15) :
    k.image x y w h flip (safari (name ++ pyStr n)) ∈ k.card x y w h flip name 1 15 n := by
  unfold Ink.card
  rw [if_pos (by constructor <;> push_cast <;> omega)]
  exact List.mem_singleton.2 rfl

theorem white_mem (k : Ink) (b : Board) {o : Op} (h : o ∈ k.card 133 116 25 111 false t!"bar-white-" 1 15 (cnt b.position.1 24)) :
    o ∈ k.safariPicture b := by
  unfold Ink.safariPicture
  iterate 3 refine List.mem_append_left _ ?_
  exact List.mem_append_right _ h

theorem green_mem (k : Ink) (b : Board) {o : Op} (h : o ∈ k.card 133 5 25 111 false t!"bar-green-" 1 15 (cnt b.position.2 24)) :
    o ∈ k.safariPicture b := by
  unfold Ink.safariPicture
  iterate 6 refine List.mem_append_left _ ?_
  exact List.mem_append_right _ h

theorem bar_cannot {L : Library} (hL : Loads L) (k : Ink) (x y w h : Int) (c : Text) (hc : c ∈ [t!"bar-green-", t!"bar-white-"])
    (n : Int) (h1 : 8 ≤ n) (h2 : n ≤ 15) (l : List Paint) :
    (paintOp L (k.image x y w h false (safari (c ++ pyStr n))) []).2 ≠ .ok l := by
  have e : ((n.toNat : Nat) : Int) = n := by omega
  obtain ⟨h3, h4⟩ := no_bar n.toNat (by omega) (by omega) c hc
  rw [e] at h3 h4
  exact image_cannot (hL.noImage _ (safari_in _ h4) h3) _ _ _ l

end Bglib
