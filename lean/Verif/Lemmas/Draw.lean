import Verif.Spec.Draw
import Verif.Lemmas.Picture
/-
Drawing an element: dots, piles and chips; when drawing cannot fail.
-/
namespace Bglib
open Spec Img

theorem dots_lemma (p s d : Int × Int) (n : Nat) (h1 : 1 ≤ n) (h6 : n ≤ 6) :
    ∃ qs, dots p s d (pyStr (n : Int)) = .ok qs ∧ qs.length = n ∧
      (0 ≤ d.1 → 0 ≤ d.2 → 4 * d.1 ≤ s.1 → 4 * d.2 ≤ s.2 →
        (∀ q ∈ qs, Within q d p s) ∧ qs.Pairwise (Apart d)) := by
  have : n = 1 ∨ n = 2 ∨ n = 3 ∨ n = 4 ∨ n = 5 ∨ n = 6 := by omega
  rcases this with rfl | rfl | rfl | rfl | rfl | rfl
  all_goals
    refine ⟨_, rfl, rfl, ?_⟩
    intro a b c e
    constructor
    · simp only [List.mem_cons, List.not_mem_nil, or_false, forall_eq_or_imp, forall_eq, Within, dotAt, dotCenter, half]
      omega
    · simp only [List.pairwise_cons, List.mem_cons, List.not_mem_nil, or_false, forall_eq_or_imp, forall_eq,
        Apart, dotAt, dotCenter, half, List.Pairwise.nil, and_true, false_implies, implies_true]
      first | done | omega

theorem chips_length (src : Text) (size off : Int × Int) (n : Nat) (p : Int × Int) :
    (chips src size off n p).length = n := by
  induction n generalizing p with
  | zero => rfl
  | succ n ih => simp [chips, ih]

theorem places_length (l : Pile) (n : Nat) (p : Int × Int) : (l.places n p).1.length = n := by
  induction n generalizing p with
  | zero => rfl
  | succ n ih => simp [Pile.places, ih]

/-! ### Attributes that are needed -/

def isOk {α : Type} : Py α → Bool
  | .ok _ => true
  | .error _ => false

theorem isOk_iff {α : Type} (x : Py α) : isOk x = true ↔ ∃ a, x = .ok a := by
  cases x <;> simp [isOk]

/-- The four attributes of the box are there. -/
def boxReady (up : List Elem) : Bool :=
  isOk (attrInt t!"width" up) && isOk (attrInt t!"height" up) && isOk (attrInt t!"x" up) && isOk (attrInt t!"y" up)

theorem box_ok (scale : Int → Int) (up : List Elem) (h : boxReady up = true) : ∃ p s, boxOf scale up = .ok (p, s) := by
  unfold boxReady at h
  simp only [Bool.and_eq_true, isOk_iff] at h
  obtain ⟨⟨⟨⟨w, hw⟩, ⟨v, hv⟩⟩, ⟨x, hx⟩⟩, ⟨y, hy⟩⟩ := h
  refine ⟨(scale x, scale y), (scale w, scale v), ?_⟩
  unfold boxOf
  simp only [bind, Except.bind, pure, Except.pure, hw, hv, hx, hy]

/-- `flip` is there if an image is. -/
def flipReady (up : List Elem) : Bool := isOk (attrFlag t!"flip" up)

/-- What the parent of a pile needs. -/
def cornerReady : List Elem → Bool
  | [] => false
  | _ :: par => boxReady par

theorem corner_ok (scale : Int → Int) (up : List Elem) (h : cornerReady up = true) :
    ∃ c, cornerOf scale up = .ok c := by
  cases up with
  | nil => simp [cornerReady] at h
  | cons e par =>
    unfold cornerReady boxReady at h
    simp only [Bool.and_eq_true, isOk_iff] at h
    obtain ⟨⟨⟨⟨w, hw⟩, ⟨v, hv⟩⟩, ⟨x, hx⟩⟩, ⟨y, hy⟩⟩ := h
    refine ⟨(scale x + scale w, scale y + scale v), ?_⟩
    unfold cornerOf
    simp only [bind, Except.bind, pure, Except.pure, hw, hv, hx, hy]

/-- The attributes that drawing an element of a kind needs, apart from its box. -/
def kindReady (n : EName) (up : List Elem) : Bool :=
  let image := (attrTruthy t!"image" up).isSome
  let font := (attrTruthy t!"font" up).isSome
  match n with
  | .action | .length | .score | .crawford =>
    if image then flipReady up else !font || (attrText? t!"color" up).isSome
  | .field => true
  | .die => isOk (lookupAttr t!"diestyle" up) &&
      (if image then flipReady up
       else if lookupAttr t!"diestyle" up = .ok (.str t!"numeric") ∧ font = true then true
       else decide (lookupAttr t!"diestyle" up = .ok (.str t!"dot")) && isOk (attrInt t!"eyesize" up))
  | .cube => if image then flipReady up else font
  | .resign => isOk (attrInt t!"x_offset" up) && isOk (attrInt t!"y_offset" up) && (image || font)
  | .chequer => isOk (attrInt t!"max_count" up) && (!image || flipReady up) && cornerReady up
  | .point => if image then flipReady up else flipReady up && decide (attrText? t!"color" up ≠ some [])
  | .board | .match | .position | .topFrame | .bottomFrame | .cubeholder | .home | .bar =>
    !(attrText? t!"image" up).isSome || flipReady up

/-- The attributes that drawing an element needs. -/
def attrsReady (up : List Elem) : Bool :=
  match up with
  | [] => false
  | e :: _ =>
    (!hasAttr t!"background" up || ((attrText? t!"background" up).isSome && boxReady up)) &&
    (!(hasAttr t!"image" up || hasAttr t!"color" up) || (boxReady up && kindReady e.name up))

/-- The text that drawing an element needs. -/
def dataReady (e : Elem) : Prop :=
  match e.name with
  | .action | .length | .score | .crawford => e.data ≠ []
  | .die => ∃ n : Nat, 1 ≤ n ∧ n ≤ 6 ∧ e.data = [pyStr (n : Int)]
  | .cube | .chequer => ∃ n : Int, e.data = [pyStr n]
  | .resign => ∃ n : Nat, n ≤ 3 ∧ e.data = [pyStr (n : Int)]
  | _ => True

theorem firstText_of {e : Elem} {up : List Elem} {t : Text} (h : e.data = [t]) : firstText (e :: up) = .ok t := by
  simp [firstText, h]

theorem firstInt_of {e : Elem} {up : List Elem} {n : Int} (h : e.data = [pyStr n]) : firstInt (e :: up) = .ok n := by
  unfold firstInt
  rw [firstText_of h]
  simp only [pyInt_pyStr]

theorem paste_ok (src : Text) (up : List Elem) (p s : Int × Int) (h : flipReady up = true) :
    ∃ ops, paste src up p s = .ok ops := by
  unfold flipReady at h
  obtain ⟨f, hf⟩ := (isOk_iff _).1 h
  exact ⟨_, by simp only [paste, bind, Except.bind, pure, Except.pure, hf]; rfl⟩

theorem label_ok (scale : Int → Int) (e : Elem) (up : List Elem) (p s : Int × Int)
    (hb : boxOf scale (e :: up) = .ok (p, s))
    (h : (if (attrTruthy t!"image" (e :: up)).isSome = true then flipReady (e :: up)
      else !(attrTruthy t!"font" (e :: up)).isSome || (attrText? t!"color" (e :: up)).isSome) = true)
    (hd : e.data ≠ []) :
    (∃ ops, drawLabel scale (e :: up) = .ok ops) ∧ ∃ ops, drawCrawford scale (e :: up) = .ok ops := by
  obtain ⟨t, l, ht⟩ : ∃ t l, e.data = t :: l := by
    cases hh : e.data with
    | nil => exact absurd hh hd
    | cons t l => exact ⟨t, l, rfl⟩
  have hf : firstText (e :: up) = .ok t := by simp [firstText, ht]
  unfold drawLabel drawCrawford needColor
  simp only [bind, Except.bind, pure, Except.pure, hb, hf]
  cases hi : attrTruthy t!"image" (e :: up) with
  | some i =>
    rw [hi] at h
    obtain ⟨ops, ho⟩ := paste_ok i (e :: up) p s (by simpa using h)
    exact ⟨⟨ops, ho⟩, ⟨ops, ho⟩⟩
  | none =>
    cases hfo : attrTruthy t!"font" (e :: up) with
    | none => exact ⟨⟨_, rfl⟩, ⟨_, rfl⟩⟩
    | some f =>
      rw [hi, hfo] at h
      cases hc : attrText? t!"color" (e :: up) with
      | none => rw [hc] at h; simp at h
      | some c =>
        refine ⟨⟨_, rfl⟩, ?_⟩
        dsimp only
        split <;> exact ⟨_, rfl⟩

theorem kind_ok (scale : Int → Int) (e : Elem) (up : List Elem) (p s : Int × Int)
    (hb : boxOf scale (e :: up) = .ok (p, s)) (h : kindReady e.name (e :: up) = true) (hd : dataReady e) :
    ∃ ops, drawElem scale (e :: up) = .ok ops := by
  have base : (!(attrText? t!"image" (e :: up)).isSome || flipReady (e :: up)) = true →
      ∃ ops, drawBase scale (e :: up) = .ok ops := by
    intro h
    unfold drawBase
    simp only [bind, Except.bind, pure, Except.pure, hb]
    cases hi : attrText? t!"image" (e :: up) with
    | none => exact ⟨_, rfl⟩
    | some i => rw [hi] at h; exact paste_ok _ _ _ _ (by simpa using h)
  unfold drawElem
  dsimp only
  unfold kindReady at h
  unfold dataReady at hd
  cases hn : e.name <;> simp only [hn] at h hd ⊢
  case action => exact (label_ok scale e up p s hb h hd).1
  case length => exact (label_ok scale e up p s hb h hd).1
  case score => exact (label_ok scale e up p s hb h hd).1
  case crawford => exact (label_ok scale e up p s hb h hd).2
  case field =>
    unfold drawField
    simp only [bind, Except.bind, pure, Except.pure, hb]
    cases attrTruthy t!"image" (e :: up) <;> cases attrTruthy t!"text" (e :: up) <;>
      cases attrTruthy t!"font" (e :: up) <;> exact ⟨_, rfl⟩
  case die =>
    obtain ⟨n, h1, h6, hdat⟩ := hd
    unfold drawDie
    rw [Bool.and_eq_true, isOk_iff] at h
    obtain ⟨⟨st, hst⟩, h⟩ := h
    simp only [bind, Except.bind, pure, Except.pure, hb, hst, firstText_of hdat]
    cases hi : attrTruthy t!"image" (e :: up) with
    | some i => rw [hi] at h; exact paste_ok _ _ _ _ (by simpa using h)
    | none =>
      rw [hi, hst] at h
      simp only [Option.isSome_none, Bool.false_eq_true, if_false, Except.ok.injEq] at h
      dsimp only
      by_cases hc : st = .str t!"numeric" ∧ (attrTruthy t!"font" (e :: up)).isSome = true
      · rw [if_pos hc]; exact ⟨_, rfl⟩
      · rw [if_neg hc] at h ⊢
        rw [Bool.and_eq_true, decide_eq_true_eq, isOk_iff] at h
        obtain ⟨hs, k, hk⟩ := h
        rw [if_pos hs, hk]
        obtain ⟨qs, hq, -⟩ := dots_lemma p s (scale k, scale k) n h1 h6
        simp only [hq]
        exact ⟨_, rfl⟩
  case cube =>
    obtain ⟨n, hdat⟩ := hd
    unfold drawCube
    simp only [bind, Except.bind, pure, Except.pure, hb, firstInt_of hdat]
    cases hi : attrTruthy t!"image" (e :: up) with
    | some i => rw [hi] at h; exact paste_ok _ _ _ _ (by simpa using h)
    | none =>
      rw [hi] at h
      cases hf : attrTruthy t!"font" (e :: up) with
      | none => rw [hf] at h; simp at h
      | some f =>
        dsimp only
        cases (if n = 0 then attrText? t!"initialCube" (e :: up) else none) <;> exact ⟨_, rfl⟩
  case resign =>
    obtain ⟨n, h3, hdat⟩ := hd
    unfold drawResign
    simp only [Bool.and_eq_true, isOk_iff] at h
    obtain ⟨⟨⟨ox, hx⟩, ⟨oy, hy⟩⟩, h⟩ := h
    simp only [bind, Except.bind, pure, Except.pure, hb, firstInt_of hdat, hx, hy]
    cases hi : attrTruthy t!"image" (e :: up) with
    | some i => exact ⟨_, rfl⟩
    | none =>
      rw [hi] at h
      cases hf : attrTruthy t!"font" (e :: up) with
      | none => rw [hf] at h; simp at h
      | some f =>
        dsimp only
        have : n = 0 ∨ n = 1 ∨ n = 2 ∨ n = 3 := by omega
        rcases this with rfl | rfl | rfl | rfl <;> exact ⟨_, rfl⟩
  case chequer =>
    obtain ⟨n, hdat⟩ := hd
    unfold drawChequer chequerMark
    simp only [Bool.and_eq_true, isOk_iff] at h
    obtain ⟨⟨⟨m, hm⟩, hfl⟩, hco⟩ := h
    obtain ⟨c, hc⟩ := corner_ok scale _ hco
    simp only [bind, Except.bind, pure, Except.pure, hb, firstInt_of hdat, hm, hc]
    split
    · exact ⟨_, rfl⟩
    · cases hi : attrTruthy t!"image" (e :: up) with
      | none => exact ⟨_, rfl⟩
      | some i =>
        rw [hi] at hfl
        obtain ⟨f, hf⟩ := (isOk_iff _).1 (by simpa [flipReady] using hfl)
        simp only [hf]
        exact ⟨_, rfl⟩
  case point =>
    obtain ⟨x, y⟩ := p
    obtain ⟨w, v⟩ := s
    unfold drawPoint
    simp only [bind, Except.bind, pure, Except.pure, hb]
    cases hi : attrTruthy t!"image" (e :: up) with
    | some i => rw [hi] at h; exact paste_ok _ _ _ _ (by simpa using h)
    | none =>
      rw [hi] at h
      simp only [Option.isSome_none, Bool.false_eq_true, if_false, Bool.and_eq_true, decide_eq_true_eq] at h
      obtain ⟨f, hf⟩ := (isOk_iff _).1 h.1
      have hne : ¬ (attrText? t!"color" (e :: up)).getD t!"white" = [] := by
        cases hc : attrText? t!"color" (e :: up) with
        | none => simp
        | some t => intro h'; simp at h'; exact h.2 (by rw [hc, h'])
      simp only
      rw [if_neg hne, hf]
      exact ⟨_, rfl⟩
  all_goals exact base h

/-- An element whose attributes and text are there can be drawn at any magnification. -/
theorem draw_ok (scale : Int → Int) (e : Elem) (up : List Elem) (h : attrsReady (e :: up) = true) (hd : dataReady e) :
    ∃ ops, drawElement scale (e :: up) = .ok ops := by
  unfold attrsReady at h
  rw [Bool.and_eq_true] at h
  obtain ⟨h1, h2⟩ := h
  have ha : ∃ a, backOps scale (e :: up) = .ok a := by
    unfold backOps
    by_cases hb : hasAttr t!"background" (e :: up) = true
    · rw [if_pos hb]
      simp only [hb, Bool.not_true, Bool.false_or, Bool.and_eq_true] at h1
      obtain ⟨p, s, hbox⟩ := box_ok scale _ h1.2
      obtain ⟨c, hc⟩ := Option.isSome_iff_exists.1 h1.1
      unfold bgDraw
      rw [hc]
      simp only [bind, Except.bind, pure, Except.pure, hbox]
      exact ⟨_, rfl⟩
    · rw [if_neg hb]; exact ⟨_, rfl⟩
  have hb : ∃ a, ownOps scale (e :: up) = .ok a := by
    unfold ownOps
    by_cases hi : (hasAttr t!"image" (e :: up) || hasAttr t!"color" (e :: up)) = true
    · rw [if_pos hi]
      simp only [hi, Bool.not_true, Bool.false_or, Bool.and_eq_true] at h2
      obtain ⟨p, s, hbox⟩ := box_ok scale _ h2.1
      exact kind_ok scale e up p s hbox h2.2 hd
    · rw [if_neg hi]; exact ⟨_, rfl⟩
  obtain ⟨a, ha⟩ := ha
  obtain ⟨b, hb⟩ := hb
  refine ⟨a ++ b, ?_⟩
  unfold drawElement
  simp only [bind, Except.bind, pure, Except.pure, ha, hb]

end Bglib
