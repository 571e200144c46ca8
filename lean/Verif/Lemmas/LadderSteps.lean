import Verif.Lemmas.Ladders
/-
Where starred items go.
-/
namespace Bglib.Doc
open Spec.Document

variable {w w' : Wiki} {env : Env}

/-! ### Kinds of open elements -/

def rung : Bool → Klass
  | true => .itemize
  | false => stars

/-- The kinds of open elements of a block with items (`true`) and lists (`false`), from the innermost. -/
def shape (bs : List Bool) : List Klass := bs.map rung ++ [.div, .root]

/-- Leaving a list. -/
def leaveL : List Bool → List Bool
  | [] => []
  | false :: bs => bs
  | true :: bs => leaveL bs

/-- Leaving an item, if any. -/
def leaveI : List Bool → List Bool
  | [] => []
  | true :: bs => bs
  | false :: bs => if true ∈ bs then leaveI bs else false :: bs

theorem leaveK_cons (P : Klass → Bool) (k : Klass) (ks : List Klass) :
    leaveK P (k :: ks) = if P k then ks else if ks.any P then leaveK P ks else k :: ks := by
  simp only [leaveK, List.any_cons, List.dropWhile_cons]
  by_cases hk : P k = true
  · simp [hk]
  · by_cases ha : ks.any P = true <;> simp [hk, ha]

def pList (k : Klass) : Bool := [Klass.list none].any fun c => k.isA c
def pItem (k : Klass) : Bool := [Klass.itemize].any fun c => k.isA c
def pDiv (k : Klass) : Bool := [Klass.div].any fun c => k.isA c

theorem pList_rung (b : Bool) : pList (rung b) = !b := by cases b <;> rfl
theorem pItem_rung (b : Bool) : pItem (rung b) = b := by cases b <;> rfl
theorem pDiv_rung (b : Bool) : pDiv (rung b) = false := by cases b <;> rfl

theorem shape_cons (b : Bool) (bs : List Bool) : shape (b :: bs) = rung b :: shape bs := rfl

theorem any_list (bs : List Bool) : (shape bs).any pList = bs.any (!·) := by
  have e : ([Klass.div, Klass.root].any pList) = false := rfl
  rw [shape, List.any_append, e, Bool.or_false, List.any_map]
  congr 1
  funext b
  exact pList_rung b

theorem any_item (bs : List Bool) : (shape bs).any pItem = bs.any (·) := by
  have e : ([Klass.div, Klass.root].any pItem) = false := rfl
  rw [shape, List.any_append, e, Bool.or_false, List.any_map]
  congr 1
  funext b
  exact pItem_rung b

theorem leaveK_list (bs : List Bool) (h : false ∈ bs) : leaveK pList (shape bs) = shape (leaveL bs) := by
  induction bs with
  | nil => cases h
  | cons b bs ih =>
    rw [shape_cons, leaveK_cons, pList_rung]
    cases b with
    | false => rfl
    | true =>
      have h' : false ∈ bs := by simpa using h
      rw [any_list, if_neg (by simp), if_pos (by rw [List.any_eq_true]; exact ⟨false, h', rfl⟩)]
      exact ih h'

theorem leaveK_item (bs : List Bool) : leaveK pItem (shape bs) = shape (leaveI bs) := by
  induction bs with
  | nil => rfl
  | cons b bs ih =>
    rw [shape_cons, leaveK_cons, pItem_rung]
    cases b with
    | true => rfl
    | false =>
      rw [any_item, if_neg (by simp), leaveI]
      by_cases h : true ∈ bs
      · rw [if_pos (by rw [List.any_eq_true]; exact ⟨true, h, rfl⟩), if_pos h]
        exact ih
      · rw [if_neg (by rw [List.any_eq_true]; rintro ⟨x, hx, e⟩; cases x <;> simp_all), if_neg h]
        rfl

theorem leaveK_div (bs : List Bool) : leaveK pDiv (shape bs) = [.root] := by
  have ha : (shape bs).any pDiv = true := by
    rw [shape, List.any_append]
    have : ([Klass.div, Klass.root].any pDiv) = true := rfl
    rw [this, Bool.or_true]
  induction bs with
  | nil => rfl
  | cons b bs ih =>
    have h' : (shape bs).any pDiv = true := by
      rw [shape_cons, List.any_cons, pDiv_rung, Bool.false_or] at ha
      exact ha
    rw [shape_cons, leaveK_cons, pDiv_rung, if_neg (by simp), if_pos h']
    exact ih h'

theorem shape_last (bs : List Bool) : (shape bs).getLast? = some .root := by
  rw [shape, show bs.map rung ++ [Klass.div, .root] = (bs.map rung ++ [.div]) ++ [.root] by simp, List.getLast?_concat]

theorem shape_count (bs : List Bool) {fs : List Frame} (h : fs.map (·.klass) = shape bs) : fs.countP isLists = bs.countP (!·) := by
  have e : fs.countP isLists = (fs.map (·.klass)).countP pList := by
    rw [List.countP_map]
    congr 1
    funext f
    simp [isLists, pList]
  rw [e, h, shape, List.countP_append]
  have : [Klass.div, Klass.root].countP pList = 0 := rfl
  rw [this, Nat.add_zero, List.countP_map]
  congr 1
  funext b
  exact pList_rung b

/-! ### Many at once -/

def leavesZ : Nat → List Frame → List Frame
  | 0, fs => fs
  | n + 1, fs => leavesZ n (leaveZ [.list none] fs)

def leavesL : Nat → List Bool → List Bool
  | 0, bs => bs
  | n + 1, bs => leavesL n (leaveL bs)

theorem st_leaves (n : Nat) {fs : List Frame} (h : Stack w env fs) : Yields (times (fun w => w.leave [.list none]) n w) env (leavesZ n fs) := by
  induction n generalizing w fs with
  | zero => exact yields_ok h
  | succ n ih =>
    simp only [times, leavesZ]
    exact yields_bind (st_leave [.list none] h (by decide)) fun w1 h1 => ih h1

theorem rungs_leaveL {bs : List Bool} {fs : List Frame} {D : List Nat} (h : Rungs fs D) (hs : fs.map (·.klass) = shape bs) (hb : false ∈ bs) :
    Rungs (leaveZ [.list none] fs) D ∧ (leaveZ [.list none] fs).map (·.klass) = shape (leaveL bs) := by
  obtain ⟨a, b⟩ := rungs_leave [.list none] h (by rw [hs, shape_last]; intro k hk; cases hk; rfl)
  refine ⟨a, ?_⟩
  rw [b, hs]
  exact leaveK_list bs hb

theorem rungs_leaveI {bs : List Bool} {fs : List Frame} {D : List Nat} (h : Rungs fs D) (hs : fs.map (·.klass) = shape bs) :
    Rungs (leaveZ [.itemize] fs) D ∧ (leaveZ [.itemize] fs).map (·.klass) = shape (leaveI bs) := by
  obtain ⟨a, b⟩ := rungs_leave [.itemize] h (by rw [hs, shape_last]; intro k hk; cases hk; rfl)
  refine ⟨a, ?_⟩
  rw [b, hs]
  exact leaveK_item bs

theorem count_leaveL (bs : List Bool) (h : false ∈ bs) : (leaveL bs).countP (!·) + 1 = bs.countP (!·) := by
  induction bs with
  | nil => cases h
  | cons b bs ih =>
    cases b with
    | false => simp [leaveL]
    | true =>
      have h' : false ∈ bs := by simpa using h
      simpa [leaveL] using ih h'

theorem rungs_leavesL (n : Nat) {bs : List Bool} {fs : List Frame} {D : List Nat} (h : Rungs fs D) (hs : fs.map (·.klass) = shape bs)
    (hb : n ≤ bs.countP (!·)) : Rungs (leavesZ n fs) D ∧ (leavesZ n fs).map (·.klass) = shape (leavesL n bs) := by
  induction n generalizing bs fs with
  | zero => exact ⟨h, hs⟩
  | succ n ih =>
    have hm : false ∈ bs := by
      obtain ⟨x, hx, e⟩ := List.countP_pos_iff.1 (show 0 < bs.countP (!·) by omega)
      cases x
      · exact hx
      · cases e
    obtain ⟨a, b⟩ := rungs_leaveL h hs hm
    have := count_leaveL bs hm
    exact ih a b (by omega)

def enterZ (k : Klass) : List Frame → List Frame
  | [] => []
  | f :: fs => fresh k :: f.under :: fs

def entersZ : Nat → List Frame → List Frame
  | 0, fs => fs
  | n + 1, fs => entersZ n (enterZ stars fs)

theorem shape_head {bs : List Bool} {f : Frame} {fs : List Frame} (hs : (f :: fs).map (·.klass) = shape bs) :
    f.klass = .itemize ∨ f.klass = stars ∨ f.klass = .div := by
  cases bs with
  | nil => exact Or.inr (Or.inr (List.cons.inj hs).1)
  | cons b bs =>
    have : f.klass = rung b := (List.cons.inj hs).1
    rw [this]
    cases b
    · exact Or.inr (Or.inl rfl)
    · exact Or.inl rfl

theorem st_enterZ {bs : List Bool} {fs : List Frame} (h : Stack w env fs) (hs : fs.map (·.klass) = shape bs) :
    Yields (w.enter stars) env (enterZ stars fs) := by
  cases fs with
  | nil => exact False.elim h.pos
  | cons f fs =>
    refine st_enter h ?_ (by simp) (fresh_good _ (by simp) (by simp))
    rcases shape_head hs with k | k | k <;> rw [k] <;> rfl

theorem rungs_enterZ {bs : List Bool} {fs : List Frame} {D : List Nat} (h : Rungs fs D) (hs : fs.map (·.klass) = shape bs) :
    Rungs (enterZ stars fs) D ∧ (enterZ stars fs).map (·.klass) = shape (false :: bs) := by
  cases fs with
  | nil => cases bs <;> cases hs
  | cons f fs =>
    have := rungs_enter (k := stars) (x := none) h (Or.inl rfl)
    rw [if_neg (by simp)] at this
    refine ⟨this, ?_⟩
    rw [shape_cons, ← hs]
    rfl

theorem st_entersZ (n : Nat) {bs : List Bool} {fs : List Frame} {D : List Nat} (h : Stack w env fs) (hr : Rungs fs D)
    (hs : fs.map (·.klass) = shape bs) : Yields (times (fun w => w.enter stars) n w) env (entersZ n fs) := by
  induction n generalizing w bs fs with
  | zero => exact yields_ok h
  | succ n ih =>
    simp only [times, entersZ]
    obtain ⟨a, b⟩ := rungs_enterZ hr hs
    exact yields_bind (st_enterZ h hs) fun w1 h1 => ih h1 a b

theorem rungs_entersZ (n : Nat) {bs : List Bool} {fs : List Frame} {D : List Nat} (hr : Rungs fs D)
    (hs : fs.map (·.klass) = shape bs) : Rungs (entersZ n fs) D ∧ (entersZ n fs).map (·.klass) = shape (List.replicate n false ++ bs) := by
  induction n generalizing bs fs with
  | zero => exact ⟨hr, hs⟩
  | succ n ih =>
    obtain ⟨a, b⟩ := rungs_enterZ hr hs
    obtain ⟨c, d⟩ := ih a b
    refine ⟨c, ?_⟩
    rw [entersZ, d, List.replicate_succ', List.append_assoc]
    rfl

/-! ### The place of an item -/

/-- The elements around the next item. -/
def homeZ (d : Nat) (fs : List Frame) : List Frame :=
  if d ≤ fs.countP isLists then leaveZ [.itemize] (leavesZ (fs.countP isLists - d) fs) else entersZ (d - fs.countP isLists) fs

def homeB (d : Nat) (bs : List Bool) : List Bool :=
  if d ≤ bs.countP (!·) then leaveI (leavesL (bs.countP (!·) - d) bs) else List.replicate (d - bs.countP (!·)) false ++ bs

theorem rungs_home (d : Nat) {bs : List Bool} {fs : List Frame} {D : List Nat} (h : Rungs fs D) (hs : fs.map (·.klass) = shape bs) :
    Rungs (homeZ d fs) D ∧ (homeZ d fs).map (·.klass) = shape (homeB d bs) := by
  rw [homeZ, homeB, shape_count bs hs]
  split
  · obtain ⟨a, b⟩ := rungs_leavesL (bs.countP (!·) - d) h hs (by omega)
    exact rungs_leaveI a b
  · exact rungs_entersZ _ h hs

theorem entersZ_last (n : Nat) (fs : List Frame) : enterZ stars (entersZ n fs) = entersZ (n + 1) fs := by
  induction n generalizing fs with
  | zero => rfl
  | succ n ih => exact ih _

theorem st_home (n : Nat) {g : List (Text × Text)} {bs : List Bool} {fs : List Frame} {D : List Nat} (h : Stack w env fs) (hr : Rungs fs D)
    (hs : fs.map (·.klass) = shape bs) (hg : designOf g = .star) :
    Yields ((times (fun w => w.leave [.list none]) (fs.countP isLists - (n + 1)) w).bind fun w => w.toList (n + 1) (fs.countP isLists) g) env
      (homeZ (n + 1) fs) := by
  rw [homeZ]
  split
  · next hle =>
    refine yields_bind (st_leaves _ h) ?_
    intro w1 h1
    rw [Wiki.toList, if_pos hle]
    exact st_leave [.itemize] h1 (by decide)
  · next hle =>
    rw [show fs.countP isLists - (n + 1) = 0 by omega, times]
    simp only [Except.bind, Wiki.toList, bind, hg]
    rw [if_neg hle]
    have e : n + 1 - fs.countP isLists = (n + 1 - fs.countP isLists - 1) + 1 := by omega
    rw [e, ← entersZ_last, Nat.add_sub_cancel]
    obtain ⟨a, b⟩ := rungs_entersZ (n + 1 - fs.countP isLists - 1) hr hs
    exact yields_bind (st_entersZ _ h hr hs) fun w1 h1 => st_enterZ h1 b

/-! ### Depths and open elements -/

/-- The open elements for items of these depths, from the innermost. -/
def ladder : List Nat → List Bool
  | [] => []
  | d :: s => true :: (List.replicate (d - s.headD 0) false ++ ladder s)

/-- Each depth is larger than the next. -/
def Falling : List Nat → Prop
  | [] => True
  | d :: s => s.headD 0 < d ∧ Falling s

theorem ladder_count {s : List Nat} (h : Falling s) : (ladder s).countP (!·) = s.headD 0 := by
  induction s with
  | nil => rfl
  | cons d s ih =>
    have := ih h.2
    have hd := h.1
    simp only [ladder, List.countP_cons, List.countP_append, this, List.headD_cons, List.countP_replicate, Bool.not_true, Bool.not_false,
      if_true, Bool.false_eq_true, if_false]
    omega

theorem leavesL_some (n m : Nat) (X : List Bool) (h : n ≤ m) : leavesL n (List.replicate m false ++ X) = List.replicate (m - n) false ++ X := by
  induction n generalizing m with
  | zero => rfl
  | succ n ih =>
    obtain ⟨m, rfl⟩ : ∃ k, m = k + 1 := ⟨m - 1, by omega⟩
    rw [leavesL, List.replicate_succ, List.cons_append, leaveL, ih m (by omega)]
    congr 2
    omega

theorem leavesL_add (n m : Nat) (X : List Bool) : leavesL (n + m) X = leavesL m (leavesL n X) := by
  induction n generalizing X with
  | zero => rw [Nat.zero_add]; rfl
  | succ n ih => rw [show n + 1 + m = (n + m) + 1 by omega, leavesL, leavesL, ih]

theorem leaveI_lists (m : Nat) (X : List Bool) : leaveI (List.replicate m false ++ true :: X) = X := by
  induction m with
  | zero => rfl
  | succ m ih => rw [List.replicate_succ, List.cons_append, leaveI, if_pos (by simp), ih]

theorem leaveI_none (m : Nat) : leaveI (List.replicate m false) = List.replicate m false := by
  cases m with
  | zero => rfl
  | succ m => rw [List.replicate_succ, leaveI, if_neg (by simp)]

theorem leavesL_true (n : Nat) (X : List Bool) : leavesL (n + 1) (true :: X) = leavesL (n + 1) X := rfl

theorem back_home (d : Nat) (hd : 0 < d) (s : List Nat) (h : Falling s) (hs : s ≠ []) (hle : d ≤ s.headD 0) :
    true :: leaveI (leavesL (s.headD 0 - d) (ladder s)) = ladder (match s.dropWhile (d < ·) with | [] => [d] | t => t) := by
  induction s with
  | nil => exact absurd rfl hs
  | cons e s ih =>
    have he : s.headD 0 < e := h.1
    simp only [List.headD_cons] at hle ⊢
    rcases Nat.lt_or_ge d e with hlt | hge
    · have e1 : (e :: s).dropWhile (d < ·) = s.dropWhile (d < ·) := by simp [hlt]
      rw [e1]
      obtain ⟨n, hn⟩ : ∃ n, e - d = n + 1 := ⟨e - d - 1, by omega⟩
      rw [ladder, hn, leavesL_true, ← hn]
      rcases Nat.lt_or_ge d (s.headD 0) with h1 | h1
      · have h2 : s ≠ [] := by rintro rfl; simp at h1
        rw [show e - d = (e - s.headD 0) + (s.headD 0 - d) by omega, leavesL_add, leavesL_some _ _ _ (Nat.le_refl _), Nat.sub_self]
        exact ih h.2 h2 (by omega)
      · rw [leavesL_some _ _ _ (by omega), show e - s.headD 0 - (e - d) = d - s.headD 0 by omega]
        cases s with
        | nil =>
          simp only [ladder, List.append_nil, List.headD_nil, Nat.sub_zero, List.dropWhile_nil]
          rw [leaveI_none]
        | cons c s =>
          have h3 : ¬ d < c := by simpa using h1
          have e2 : (c :: s).dropWhile (d < ·) = c :: s := by simp [h3]
          rw [e2, ladder, leaveI_lists]
    · have : e = d := by omega
      subst this
      have e2 : (e :: s).dropWhile (e < ·) = e :: s := by simp
      rw [Nat.sub_self, leavesL, e2]
      rfl

theorem home_ladder (d : Nat) (hd : 0 < d) {s : List Nat} (h : Falling s) : true :: homeB d (ladder s) = ladder (joined s d) := by
  rw [homeB, ladder_count h]
  cases s with
  | nil => rw [if_neg (show ¬ d ≤ ([] : List Nat).headD 0 from by show ¬ d ≤ 0; omega)]; simp [joined, ladder]
  | cons e s =>
    have eh : (e :: s).headD 0 = e := rfl
    rw [joined]
    rcases Nat.lt_or_ge e d with h1 | h1
    · rw [if_neg (by rw [eh]; omega), if_pos h1]
      rfl
    · rw [if_pos (by rw [eh]; exact h1), if_neg (by omega)]
      exact back_home d hd (e :: s) h (by simp) h1

theorem falling_drop (P : Nat → Bool) {s : List Nat} (h : Falling s) : Falling (s.dropWhile P) := by
  induction s with
  | nil => trivial
  | cons e s ih =>
    rw [List.dropWhile_cons]
    split
    · exact ih h.2
    · exact h

theorem falling_joined (d : Nat) (hd : 0 < d) {s : List Nat} (h : Falling s) : Falling (joined s d) ∧ joined s d ≠ [] := by
  cases s with
  | nil => exact ⟨⟨by simpa using hd, trivial⟩, by simp [joined]⟩
  | cons e s =>
    rw [joined]
    split
    · next h1 => exact ⟨⟨by simpa using h1, h⟩, by simp⟩
    · have := falling_drop (d < ·) h
      split
      · exact ⟨⟨by simpa using hd, trivial⟩, by simp⟩
      · next hne => exact ⟨this, hne⟩

theorem joined_le (d : Nat) (s : List Nat) : (joined s d).headD 0 ≤ d := by
  cases s with
  | nil => exact Nat.le_refl _
  | cons e s =>
    rw [joined]
    split
    · exact Nat.le_refl _
    · split
      · exact Nat.le_refl _
      · next hne =>
        cases hd : (e :: s).dropWhile (fun x => decide (d < x)) with
        | nil => exact Nat.zero_le _
        | cons c t =>
          have := List.head?_dropWhile_not (fun x => decide (d < x)) (e :: s)
          rw [hd] at this
          simpa using this

theorem nested_le (ds : List Nat) (s : List Nat) : (nested s ds).length = ds.length ∧ ∀ p ∈ (nested s ds).zip ds, p.1 ≤ p.2 := by
  induction ds generalizing s with
  | nil => exact ⟨rfl, by simp [nested]⟩
  | cons d ds ih =>
    obtain ⟨a, b⟩ := ih (joined s d)
    refine ⟨by simp [nested, a], ?_⟩
    intro p hp
    rw [nested, List.zip_cons_cons] at hp
    rcases List.mem_cons.1 hp with rfl | hp
    · exact joined_le d s
    · exact b p hp

/-! ### Lines -/

/-- Items of these depths are open, and items of those have been written. -/
def Standing (w : Wiki) (env : Env) (s D : List Nat) : Prop :=
  Falling s ∧ ∃ fs, Stack w env fs ∧ Rungs fs D ∧ fs.map (·.klass) = shape (ladder s)

theorem st_starred (n : Nat) {l : Line} {fs : List Frame} {s D : List Nat} (hl : Fit l) (h : Stack w env fs) (hw : Within fs) (hf : Falling s)
    (hr : Rungs (begun fs) D) (hs : (begun fs).map (·.klass) = shape (ladder s)) :
    ∃ w', w.line env (itemHead n .star ++ write l) = .ok w' ∧ Standing w' env (joined s (n + 1)) (D ++ [(joined s (n + 1)).headD 0]) := by
  obtain ⟨a, b⟩ := rungs_home (n + 1) hr hs
  have hj := home_ladder (n + 1) (by omega) hf
  obtain ⟨j1, j2⟩ := falling_joined (n + 1) (by omega) hf
  have hc := ladder_count j1
  rw [← hj] at hc
  have hlisty : ∀ f ∈ begun fs, isListy f.klass := by
    intro f hf
    rcases hr.kinds f hf with k | k | k | k
    · exact Or.inl k
    · exact Or.inr (Or.inl ⟨_, k⟩)
    · exact Or.inr (Or.inr (Or.inl k))
    · exact Or.inr (Or.inr (Or.inr k))
  -- the innermost element around the item is a list
  obtain ⟨bs, hbs⟩ : ∃ bs, homeB (n + 1) (ladder s) = false :: bs := by
    cases hjj : joined s (n + 1) with
    | nil => exact absurd hjj j2
    | cons e t =>
      rw [hjj] at hj j1
      have := (List.cons.inj hj).2
      rw [this]
      have h1 := j1.1
      obtain ⟨m, hm⟩ : ∃ m, e - t.headD 0 = m + 1 := ⟨e - t.headD 0 - 1, by omega⟩
      exact ⟨List.replicate m false ++ ladder t, by rw [hm, List.replicate_succ, List.cons_append]⟩
  cases hz : homeZ (n + 1) (begun fs) with
  | nil => rw [hz, hbs] at b; cases b
  | cons L gs =>
    rw [hz] at a b
    rw [hbs, shape_cons] at b
    have hL : L.klass = stars := (List.cons.inj b).1
    have ht : L.tail = [] := a.empty L (by simp) (by rw [hL]; simp)
    obtain ⟨w', e, h'⟩ := st_item_line (gs := gs) (L := L) (d := .star) n .star h hw (listy_opened hlisty _ (by decide)) hl hL ht
      (by
        intro f hf
        rcases a.kinds f (by simp [hf]) with k | k | k | k
        · exact Or.inl k
        · exact Or.inr (Or.inl ⟨_, k⟩)
        · exact Or.inr (Or.inr (Or.inl k))
        · exact Or.inr (Or.inr (Or.inr k))) (by simp)
      (by
        intro w1 g h1 hg
        refine ⟨_, at_nesting (.list none) h1.pos, ?_⟩
        rw [← hz]
        exact st_home n h1 hr hs hg)
    refine ⟨w', e, j1, _, h', ?_, ?_⟩
    · have := rungs_enter (k := .itemize) (x := some (.item true)) a (Or.inr rfl)
      rw [if_pos rfl, under_of ht] at this
      have e2 : (L :: gs).countP isLists = (joined s (n + 1)).headD 0 := by
        rw [← hc, shape_count (homeB (n + 1) (ladder s)) (by rw [hbs, shape_cons]; exact b)]
        simp
      rw [e2] at this
      exact rungs_line this
    · rw [List.map_cons, addLine_klass, b, ← hj, hbs]
      rfl

theorem standing_within {s : List Nat} {fs : List Frame} (hs : fs.map (·.klass) = shape (ladder s)) : Within fs ∧ begun fs = fs := by
  have hd : opened [.div] fs = true := by
    have : opened [.div] fs = (fs.map (·.klass)).any pDiv := by
      rw [List.any_map]
      rfl
    rw [this, hs, shape, List.any_append]
    have : ([Klass.div, Klass.root].any pDiv) = true := rfl
    rw [this, Bool.or_true]
  have hlen : 2 ≤ fs.length := by
    have := congrArg List.length hs
    simp [shape] at this
    omega
  match fs, hlen with
  | f :: g :: gs, _ => exact ⟨within_two hd, rfl⟩

/-- The lines of starred items. -/
def starredLines (xs : List (Nat × Line)) : List Text := xs.map fun x => List.replicate x.1 ' ' ++ t!"* " ++ write x.2

theorem starred_head (n : Nat) (l : Line) : List.replicate (n + 1) ' ' ++ t!"* " ++ write l = itemHead n .star ++ write l := by
  simp [itemHead, Mark.write]

theorem st_starreds (xs : List (Nat × Line)) {s D : List Nat} (h : Standing w env s D) (hx : ∀ x ∈ xs, 1 ≤ x.1 ∧ Fit x.2) :
    ∃ w' s', w.lines env (starredLines xs) = .ok w' ∧ Standing w' env s' (D ++ nested s (xs.map (·.1))) := by
  induction xs generalizing w s D with
  | nil => exact ⟨w, s, rfl, by simpa [nested] using h⟩
  | cons x xs ih =>
    obtain ⟨hf, fs, h1, h2, h3⟩ := h
    obtain ⟨hx1, hx2⟩ := hx x (by simp)
    obtain ⟨n, hn⟩ : ∃ n, x.1 = n + 1 := ⟨x.1 - 1, by omega⟩
    obtain ⟨k1, k2⟩ := standing_within h3
    obtain ⟨w1, e1, h4⟩ := st_starred n hx2 h1 k1 hf (by rw [k2]; exact h2) (by rw [k2]; exact h3)
    obtain ⟨w2, s', e2, h5⟩ := ih h4 fun y hy => hx y (by simp [hy])
    refine ⟨w2, s', ?_, ?_⟩
    · rw [starredLines, List.map_cons, lines_cons, hn, starred_head, e1]
      exact e2
    · rw [List.map_cons, nested, hn]
      simpa using h5

theorem st_ladder (xs : List (Nat × Line)) (hne : xs ≠ []) (hx : ∀ x ∈ xs, 1 ≤ x.1 ∧ Fit x.2) :
    ∃ t, format env (starred xs) = .ok t ∧ depths t = nested [] (xs.map (·.1)) := by
  cases xs with
  | nil => exact absurd rfl hne
  | cons x xs =>
    have h0 : Stack Wiki.start env [rootFrame []] := ⟨at_start, rfl⟩
    obtain ⟨hx1, hx2⟩ := hx x (by simp)
    obtain ⟨n, hn⟩ : ∃ n, x.1 = n + 1 := ⟨x.1 - 1, by omega⟩
    have hr : Rungs (begun [rootFrame []]) [] := by
      rw [begun_root]
      refine ⟨?_, ?_, ?_, ?_, ?_⟩
      · intro f hf
        simp only [List.mem_cons, List.not_mem_nil, or_false] at hf
        rcases hf with rfl | rfl
        · exact Or.inr (Or.inr (Or.inl rfl))
        · exact Or.inr (Or.inr (Or.inr rfl))
      · intro f hf
        simp only [List.tail_cons, List.mem_cons, List.not_mem_nil, or_false] at hf
        rw [hf]; rfl
      · intro f hf _
        simp only [List.mem_cons, List.not_mem_nil, or_false] at hf
        rcases hf with rfl | rfl <;> rfl
      · decide
      · decide
    obtain ⟨w1, e1, h1⟩ := st_starred (s := []) n hx2 h0 (within_root []) trivial hr (by rw [begun_root]; rfl)
    obtain ⟨w2, s', e2, hf, fs, h2, h3, h4⟩ := st_starreds xs h1 fun y hy => hx y (by simp [hy])
    -- the empty line
    obtain ⟨w3, e3, h5⟩ := st_leave [.div] h2 (by decide)
    obtain ⟨a, b⟩ := rungs_leave [.div] h3 (by rw [h4, shape_last]; intro k hk; cases hk; rfl)
    have b : (leaveZ [.div] fs).map (·.klass) = [.root] := by
      rw [b, h4]
      exact leaveK_div _
    cases hz : leaveZ [.div] fs with
    | nil => rw [hz] at b; cases b
    | cons r rs =>
      rw [hz] at a b h5
      obtain ⟨b1, b2⟩ := List.cons.inj b
      have b2 : rs = [] := by simpa using b2
      subst b2
      have e4 : w2.line env [] = .ok w3 := by
        simp only [Wiki.line, st_block h2, Wiki.parseLine, bind, e3, Except.bind]
        rw [at_done h5]
        rfl
      refine ⟨r.inner, ?_, ?_⟩
      · have e5 : splitLines [] (starred (x :: xs)) = starredLines (x :: xs) ++ [[]] := by
          have : starred (x :: xs) = (starredLines (x :: xs) ++ [[]]).flatMap (· ++ ['\n']) := by
            simp [starred, starredLines, List.flatMap_append, List.flatMap_map]
          rw [this]
          apply splitLines_lines
          intro t ht
          rcases List.mem_append.1 ht with ht | ht
          · obtain ⟨y, hy, rfl⟩ := List.mem_map.1 ht
            obtain ⟨y1, y2⟩ := hx y hy
            obtain ⟨m, hm⟩ : ∃ m, y.1 = m + 1 := ⟨y.1 - 1, by omega⟩
            rw [hm, starred_head]
            exact tame_breaks (item_tame m .star y2)
          · rw [List.mem_singleton.1 ht]; decide
        have e6 : Wiki.start.lines env (starredLines (x :: xs) ++ [[]]) = .ok w3 := by
          rw [lines_append, starredLines, List.map_cons, lines_cons, hn, starred_head, e1]
          show ((w1.lines env (starredLines xs)).bind _) = _
          rw [e2]
          show w2.lines env [[]] = _
          rw [lines_one, e4]
        simp only [format, Wiki.parse, e5, e6, bind, Except.bind]
        exact at_html h5.pos b1
      · have := a.depth
        have e7 : sofar [r] = r.inner := by
          have b1 : r.klass = .root := b1
          rw [sofar, b1]
          rfl
        rw [e7] at this
        rw [depths, this, List.map_cons, hn]
        rfl

end Bglib.Doc
