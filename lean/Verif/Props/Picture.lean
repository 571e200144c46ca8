import Verif.Lemmas.Picture
import Verif.Lemmas.Rows
import Verif.Props.Actions
/-
The picture of a board: C39, C61.
-/
namespace Bglib
open Spec Img

/-! ### C39: the drawn board shows the board -/

/-- A picture is made exactly of the boards where the texts of `set` foresee what is next; of the others
an AssertionError. -/
theorem C39_draws (b : Board) (hs : Sensible b) :
    (Drawable b → ∃ t, ETree.create.set b = .ok t) ∧
    (¬ Drawable b → ETree.create.set b = .error .assertion) :=
  ⟨fun h => ⟨_, (set_full b hs).1 h⟩, (set_full b hs).2⟩

theorem full_of_ok {b : Board} (hs : Sensible b) {t : ETree} (h : ETree.create.set b = .ok t) :
    Drawable b ∧ t = fullTree b := by
  by_cases hd : Drawable b
  · rw [(set_full b hs).1 hd] at h
    exact ⟨hd, by cases h; rfl⟩
  · rw [(set_full b hs).2 hd] at h
    cases h

/-- The chequers of a player in a list of elements. -/
def chq (p : Int) (l : List Tree) : List (List Text) :=
  (l.filter fun k => k.elem.name = .chequer && k.elem.get t!"player" = some (.str (playerText p))).map (·.elem.data)

theorem chq_append (p : Int) (l m : List Tree) : chq p (l ++ m) = chq p l ++ chq p m := by
  simp [chq]

theorem chq_added_same (p n : Int) (hp : p = 0 ∨ p = 1) : chq p (addedC p n) = shown' n := by
  unfold chq addedC shown'
  split
  · rfl
  · rcases hp with rfl | rfl <;> rfl

theorem chq_added_other (p q n : Int) (hp : p = 0 ∧ q = 1 ∨ p = 1 ∧ q = 0) : chq p (addedC q n) = [] := by
  unfold chq addedC
  split
  · rfl
  · rcases hp with ⟨rfl, rfl⟩ | ⟨rfl, rfl⟩ <;> rfl

theorem chq_cube (p : Int) (n : Nat) : chq p [cubeLeaf n] = [] := rfl

theorem full_points (b : Board) : (fullTree b).points = (List.range 24).map fun k => fullPoint b (k + 1) := by
  unfold fullTree withField cubeTree; repeat' split
  all_goals rfl

theorem full_bar (b : Board) : (fullTree b).bar = (baseTree b).bar := by
  unfold fullTree withField cubeTree; repeat' split
  all_goals rfl

theorem full_home (b : Board) : (fullTree b).home = (cubeTree b).home := by
  unfold fullTree withField; repeat' split
  all_goals rfl

theorem full_cubeholder (b : Board) : (fullTree b).cubeholder = (cubeTree b).cubeholder := by
  unfold fullTree withField; repeat' split
  all_goals rfl

theorem full_field (b : Board) : (fullTree b).field =
    if (fieldKids b).1 = YOU then (.node ⟨.field, playerAttr YOU, []⟩ (fieldKids b).2, newElem .field (playerAttr HIM))
    else (newElem .field (playerAttr YOU), .node ⟨.field, playerAttr HIM, []⟩ (fieldKids b).2) := by
  unfold fullTree withField
  rw [cubeTree_field]
  split <;> rfl

theorem cube_home (b : Board) (p : Int) :
    chequersOf p (cubeTree b).home.1 = chq p (addedC YOU (15 - b.position.1.sum)) ∧
    chequersOf p (cubeTree b).home.2 = chq p (addedC HIM (15 - b.position.2.sum)) := by
  have e : ∀ x l, chequersOf p (.node x l) = chq p l := fun _ _ => rfl
  unfold cubeTree
  repeat' split
  all_goals (simp only [baseTree, e, Tree.kids, chq_append, chq_cube, List.append_nil, and_self])

/-- Every chequer is drawn where it is: point `i + 1` shows the chequers you have on your point `i + 1`
and those the opponent has on their point `24 - i`; the bars and homes show those on the bar and off, of
their owner only; the fields and the cube holder show none. -/
theorem C39_chequers (b : Board) (hs : Sensible b) (t : ETree) (h : ETree.create.set b = .ok t) :
    t.points.length = 24 ∧
    (∀ i, i < 24 → ∃ x, t.points[i]? = some x ∧ chequersOf 0 x = shown' (cnt b.position.1 i) ∧
      chequersOf 1 x = shown' (cnt b.position.2 (23 - i))) ∧
    chequersOf 0 t.bar.1 = shown' (cnt b.position.1 24) ∧ chequersOf 1 t.bar.1 = [] ∧
    chequersOf 1 t.bar.2 = shown' (cnt b.position.2 24) ∧ chequersOf 0 t.bar.2 = [] ∧
    chequersOf 0 t.home.1 = shown' (15 - b.position.1.sum) ∧ chequersOf 1 t.home.1 = [] ∧
    chequersOf 1 t.home.2 = shown' (15 - b.position.2.sum) ∧ chequersOf 0 t.home.2 = [] ∧
    leaves .chequer t.field.1 = [] ∧ leaves .chequer t.field.2 = [] ∧ leaves .chequer t.cubeholder = [] := by
  obtain ⟨_, rfl⟩ := full_of_ok hs h
  have e : ∀ p x l, chequersOf p (.node x l) = chq p l := fun _ _ _ => rfl
  have s0 : ∀ n, chq 0 (addedC YOU n) = shown' n := fun n => chq_added_same 0 n (Or.inl rfl)
  have s1 : ∀ n, chq 1 (addedC HIM n) = shown' n := fun n => chq_added_same 1 n (Or.inr rfl)
  have o0 : ∀ n, chq 0 (addedC HIM n) = [] := fun n => chq_added_other 0 1 n (Or.inl ⟨rfl, rfl⟩)
  have o1 : ∀ n, chq 1 (addedC YOU n) = [] := fun n => chq_added_other 1 0 n (Or.inr ⟨rfl, rfl⟩)
  rw [full_points, full_bar, full_home, full_cubeholder, full_field]
  refine ⟨by simp, ?_, s0 _, o1 _, s1 _, o0 _, ?_, ?_, ?_, ?_, ?_, ?_, ?_⟩
  · intro i hi
    refine ⟨fullPoint b (i + 1), by simp [hi], ?_⟩
    rw [fullPoint, e, e, pointKids]
    rw [show i + 1 - 1 = i by omega, show 24 - (i + 1) = 23 - i by omega]
    split
    · rw [chq_append, chq_append, s0, s1, o0, o1]; simp
    · rw [chq_append, chq_append, s0, s1, o0, o1]; simp
  · rw [(cube_home b 0).1, s0]
  · rw [(cube_home b 1).1, o1]
  · rw [(cube_home b 1).2, s1]
  · rw [(cube_home b 0).2, o0]
  · unfold fieldKids; repeat' split
    all_goals rfl
  · unfold fieldKids; repeat' split
    all_goals rfl
  · unfold cubeTree; repeat' split
    all_goals rfl

theorem numberOf_shown (n : Int) : numberOf (shown' n) = n := by
  unfold numberOf shown'
  split
  · rename_i h; subst h; rfl
  · simp [pyInt_pyStr]

theorem sum_points (r : List Int) (h : r.length = 25) :
    ((List.range 24).map fun i => cnt r i).sum + cnt r 24 = r.sum ∧
    ((List.range 24).map fun i => cnt r (23 - i)).sum + cnt r 24 = r.sum := by
  match r, h with
  | [a0, a1, a2, a3, a4, a5, a6, a7, a8, a9, a10, a11, a12, a13, a14, a15, a16, a17, a18, a19, a20, a21, a22,
     a23, a24], _ =>
    simp only [List.range, List.range.loop, List.map, List.sum_cons, List.sum_nil, cnt, List.getD_cons_zero,
      List.getD_cons_succ, Nat.reduceSub]
    omega

/-- In all, the picture shows 15 chequers of each side. -/
theorem C39_total (b : Board) (hs : Sensible b) (t : ETree) (h : ETree.create.set b = .ok t) :
    totalShown 0 t = 15 ∧ totalShown 1 t = 15 := by
  obtain ⟨hl, hp, b00, b10, b11, b01, h00, h10, h11, h01, _⟩ := C39_chequers b hs t h
  have hpt : t.points = (List.range 24).map fun k => fullPoint b (k + 1) := by
    rw [(full_of_ok hs h).2, full_points]
  have q : ∀ i, i < 24 → chequersOf 0 (fullPoint b (i + 1)) = shown' (cnt b.position.1 i) ∧
      chequersOf 1 (fullPoint b (i + 1)) = shown' (cnt b.position.2 (23 - i)) := by
    intro i hi
    obtain ⟨x, hx, h1, h2⟩ := hp i hi
    rw [hpt] at hx
    simp [hi] at hx
    rw [hx]
    exact ⟨h1, h2⟩
  have m0 : (t.points.map fun x => numberOf (chequersOf 0 x)) = (List.range 24).map fun i => cnt b.position.1 i := by
    rw [hpt, List.map_map]
    refine List.map_congr_left fun i hi => ?_
    simp only [Function.comp]
    rw [(q i (List.mem_range.1 hi)).1, numberOf_shown]
  have m1 : (t.points.map fun x => numberOf (chequersOf 1 x)) =
      (List.range 24).map fun i => cnt b.position.2 (23 - i) := by
    rw [hpt, List.map_map]
    refine List.map_congr_left fun i hi => ?_
    simp only [Function.comp]
    rw [(q i (List.mem_range.1 hi)).2, numberOf_shown]
  have n0 : numberOf [] = 0 := rfl
  have s0 := (sum_points _ hs.you).1
  have s1 := (sum_points _ hs.him).2
  unfold totalShown
  rw [m0, m1, b00, b10, b11, b01, h00, h10, h11, h01, n0, numberOf_shown, numberOf_shown, numberOf_shown,
    numberOf_shown]
  omega

theorem leaves_added (n : EName) (x : Elem) (p k : Int) (l : List Tree) (hn : n ≠ .chequer) :
    leaves n (.node x (addedC p k ++ l)) = leaves n (.node x l) := by
  unfold leaves addedC
  split
  · rfl
  · simp [Tree.kids, Tree.elem, Ne.symm hn]

theorem leaves_added' (n : EName) (x : Elem) (p k : Int) (hn : n ≠ .chequer) :
    leaves n (.node x (addedC p k)) = [] := by
  have := leaves_added n x p k [] hn
  rw [List.append_nil] at this
  rw [this]
  rfl

/-- One cube: at its owner or in the middle, or, when a double waits for its answer, the doubled cube in
the field of the player who answers.  With dice on the board a waiting double is not shown: see
`C39_false`. -/
theorem C39_cube_partial (b : Board) (hs : Sensible b) (t : ETree) (h : ETree.create.set b = .ok t) :
    (¬ Pending b → cubesShown t =
      [if b.cubeOwner = 0 then [[decimal b.cube]] else [], if b.cubeOwner = 1 then [[decimal b.cube]] else [],
       if b.cubeOwner = 3 then [[decimal b.cube]] else [], [], []]) ∧
    (Pending b → b.rolled = (0, 0) → cubesShown t =
      [[], [], [], if b.onAction = 1 then [[decimal (b.cube + 1)]] else [],
       if b.onAction = 0 then [[decimal (b.cube + 1)]] else []]) := by
  obtain ⟨_, rfl⟩ := full_of_ok hs h
  unfold cubesShown
  rw [full_home, full_cubeholder, full_field]
  constructor
  · intro hp
    have hf1 : ∀ x, leaves .cube (.node x (fieldKids b).2) = [] := by
      intro x
      unfold fieldKids
      repeat' split
      · rfl
      · rename_i h1
        exact absurd (by simpa [Pending] using h1) hp
      · rfl
      · rfl
    have hg : ∀ q, leaves .cube (newElem .field q) = [] := fun _ => rfl
    have hf2 : leaves .cube (if (fieldKids b).1 = YOU then
        ((.node ⟨.field, playerAttr YOU, []⟩ (fieldKids b).2, newElem .field (playerAttr HIM)) : Tree × Tree)
        else (newElem .field (playerAttr YOU), .node ⟨.field, playerAttr HIM, []⟩ (fieldKids b).2)).1 = [] ∧
        leaves .cube (if (fieldKids b).1 = YOU then
        ((.node ⟨.field, playerAttr YOU, []⟩ (fieldKids b).2, newElem .field (playerAttr HIM)) : Tree × Tree)
        else (newElem .field (playerAttr YOU), .node ⟨.field, playerAttr HIM, []⟩ (fieldKids b).2)).2 = [] := by
      split <;> exact ⟨by first | exact hf1 _ | exact hg _, by first | exact hf1 _ | exact hg _⟩
    rw [hf2.1, hf2.2]
    unfold cubeTree
    rw [if_neg (show ¬ (b.doubled = true ∧ b.onInnerAction ≠ b.onAction) from hp)]
    have hne : EName.cube ≠ .chequer := by decide
    rcases hs.owner with ho | ho | ho <;> rw [ho] <;>
      simp only [YOU, HIM, baseTree, Tree.kids, if_true, if_false, leaves_added _ _ _ _ _ hne,
        leaves_added' _ _ _ _ hne, Int.reduceEq] <;> rfl
  · intro hp hr
    have hk : fieldKids b = (other b.onAction, [cubeLeaf (b.cube + 1)]) := by
      unfold fieldKids
      rw [if_pos hr, if_neg (by simp [hp.1]), if_pos (by simp [hp.1]; exact hp.2)]
    rw [hk]
    have hne : EName.cube ≠ .chequer := by decide
    unfold cubeTree
    rw [if_pos (show b.doubled = true ∧ b.onInnerAction ≠ b.onAction from hp)]
    rcases hs.turns.1 with ho | ho <;> rw [ho] <;>
      simp only [other, YOU, HIM, baseTree, Tree.kids, if_true, if_false, leaves_added' _ _ _ _ hne, Int.reduceEq,
        Int.sub_zero, Int.sub_self, Int.reduceSub] <;> rfl

/-- The dice are in the field of the player on turn, right one first; none before the roll. -/
theorem C39_dice (b : Board) (hs : Sensible b) (t : ETree) (h : ETree.create.set b = .ok t) :
    leaves .die (side b.onAction t.field) = (if b.rolled = (0, 0) then [] else [[pyStr b.rolled.1], [pyStr b.rolled.2]]) ∧
    leaves .die (side (other b.onAction) t.field) = [] := by
  obtain ⟨_, rfl⟩ := full_of_ok hs h
  rw [full_field]
  unfold fieldKids
  rcases hs.turns.1 with ho | ho <;> rw [ho] <;> by_cases hr : b.rolled = (0, 0)
  all_goals
    first | rw [if_pos hr, if_pos hr] | rw [if_neg hr, if_neg hr]
    repeat' split
  all_goals first | exact ⟨rfl, rfl⟩ | simp_all [other, YOU]

/-- A resignation that is offered before the roll, without a double in the game, is in the field of the
player who answers; otherwise none is shown.  See `C39_false` for offers that are not shown. -/
theorem C39_resign_partial (b : Board) (hs : Sensible b) (t : ETree) (h : ETree.create.set b = .ok t) :
    leaves .resign (side (other b.onAction) t.field) =
      (if b.rolled = (0, 0) ∧ b.doubled = false ∧ b.onInnerAction ≠ b.onAction then [[pyStr b.resignOffer]] else []) ∧
    leaves .resign (side b.onAction t.field) = [] ∧
    (b.rolled = (0, 0) ∧ b.doubled = false ∧ b.onInnerAction ≠ b.onAction →
      1 ≤ b.resignOffer ∧ b.resignOffer ≤ 3) := by
  obtain ⟨hd, rfl⟩ := full_of_ok hs h
  refine ⟨?_, ?_, ?_⟩
  · rw [full_field]
    unfold fieldKids
    rcases hs.turns.1 with ho | ho <;> rw [ho] <;> by_cases hr : b.rolled = (0, 0) <;>
      by_cases hi : b.onInnerAction = 0 <;> by_cases hj : b.onInnerAction = 1 <;> cases hdd : b.doubled <;>
      simp [hr, hi, hj, other, YOU, side, leaves, Tree.kids, newElem, Tree.elem, cubeLeaf] at *
  · rw [full_field]
    unfold fieldKids
    rcases hs.turns.1 with ho | ho <;> rw [ho] <;> by_cases hr : b.rolled = (0, 0) <;>
      by_cases hi : b.onInnerAction = 0 <;> by_cases hj : b.onInnerAction = 1 <;> cases hdd : b.doubled <;>
      simp [hr, hi, hj, other, YOU, side, leaves, Tree.kids, newElem, Tree.elem, cubeLeaf] at *
  · rintro ⟨h1, h2, h3⟩
    rcases hd with hd | hd | hd | hd
    · exact absurd h1 hd
    · exact absurd hd h3
    · rw [h2] at hd; cases hd
    · exact hd

/-- Score, match length and Crawford flag are written as they are. -/
theorem C39_score (b : Board) (hs : Sensible b) (t : ETree) (h : ETree.create.set b = .ok t) :
    t.score.1.elem.data = [pyStr b.score.1] ∧ t.score.2.elem.data = [pyStr b.score.2] ∧
    t.length.elem.data = [pyStr b.matchLength] ∧
    t.crawford.elem.data = [if b.crawford then t!"True" else t!"False"] := by
  obtain ⟨_, rfl⟩ := full_of_ok hs h
  unfold fullTree withField cubeTree
  repeat' split
  all_goals simp_all [baseTree, Tree.elem]

/-- The text names the player on turn, what that player does before and after the roll, and the player of
the action is the one who decides: except that a double of yours is marked as your decision although the
opponent answers. -/
theorem C39_action_partial (b : Board) (hs : Sensible b) (t : ETree) (h : ETree.create.set b = .ok t) :
    t.action.elem.data = [if b.rolled ≠ (0, 0) then (phrases b.onAction).move
      else if b.onInnerAction = b.onAction then
        if b.doubled then (phrases b.onAction).took else (phrases b.onAction).roll
      else if b.doubled then (phrases b.onAction).doubled else (phrases b.onAction).resign] ∧
    (¬ (Pending b ∧ b.onAction = 0) → (b.rolled = (0, 0) ∨ b.onInnerAction = b.onAction) →
      t.action.elem.get t!"player" = some (.str (playerText b.onInnerAction))) := by
  obtain ⟨_, rfl⟩ := full_of_ok hs h
  have e : (fullTree b).action = actionTree (actionOf b).1 (actionOf b).2 := rfl
  have g : ∀ p s, (actionTree p s).elem.get t!"player" = some (.str (playerText p)) := fun _ _ => rfl
  have d : ∀ p s, (actionTree p s).elem.data = [s] := fun _ _ => rfl
  rw [e, g, d]
  unfold actionOf Pending
  rcases hs.turns with ⟨ho | ho, hi | hi⟩ <;> rw [ho, hi] <;> by_cases hr : b.rolled = (0, 0) <;>
    cases b.doubled <;> simp [hr, other, YOU]

/-- A board after a double has been taken, where the same player then resigns a single game. -/
def resigned : Board := playEdits { gameState := 1 } [.double 0, .take 1, .offerResign 0 1]

/-- Not everything is shown: (a) after a taken double a resignation is drawn as a new double; (b) a
resignation after the roll is not shown; (c) a double with dice on the board shows no cube at all;
(d) your double is marked as your decision; (e) when the turn has passed after a taken double, the other
player is said to have doubled. -/
theorem C39_false :
    (resigned.resignOffer = 1 ∧ (∃ t, ETree.create.set resigned = .ok t ∧ leaves .resign t.field.2 = [] ∧
      t.action.elem.data = [t!"you doubled. him to take or drop."] ∧ leaves .cube t.field.2 = [[t!"1"]])) ∧
    (∃ t, ETree.create.set (playEdits { gameState := 1, rolled := (3, 1) } [.offerResign 0 1]) = .ok t ∧
      leaves .resign t.field.1 = [] ∧ leaves .resign t.field.2 = [] ∧ t.action.elem.data = [t!"you to move."]) ∧
    (∃ t, ETree.create.set { rolled := (3, 1), doubled := true, onInnerAction := 1 } = .ok t ∧
      cubesShown t = [[], [], [], [], []]) ∧
    (∃ t, ETree.create.set (playEdits { gameState := 1 } [.double 0]) = .ok t ∧
      t.action.elem.get t!"player" = some (.str t!"you")) ∧
    (∃ t, ETree.create.set (playEdits { gameState := 1 } [.double 0, .take 1, .pickupDice]) = .ok t ∧
      t.action.elem.data = [t!"he doubled. you took. him to roll."]) := by
  have s : ∀ (b : Board), Sensible b → Drawable b → ETree.create.set b = .ok (fullTree b) :=
    fun b hb hd => (set_full b hb).1 hd
  refine ⟨⟨by decide, _, s _ ⟨by decide, by decide, by decide, by unfold TurnsOk; decide⟩ (by unfold Drawable; decide),
      by decide, by decide, by decide⟩,
    ⟨_, s _ ⟨by decide, by decide, by decide, by unfold TurnsOk; decide⟩ (by unfold Drawable; decide),
      by decide, by decide, by decide⟩,
    ⟨_, s _ ⟨by decide, by decide, by decide, by unfold TurnsOk; decide⟩ (by unfold Drawable; decide), by decide⟩,
    ⟨_, s _ ⟨by decide, by decide, by decide, by unfold TurnsOk; decide⟩ (by unfold Drawable; decide), by decide⟩,
    ⟨_, s _ ⟨by decide, by decide, by decide, by unfold TurnsOk; decide⟩ (by unfold Drawable; decide), by decide⟩⟩

/-- The start of a game, his turn after the opening roll. -/
example : ∃ t, ETree.create.set { gameState := 1, onAction := 1, onInnerAction := 1, rolled := (3, 1) } = .ok t ∧
    leaves .die t.field.2 = [[t!"3"], [t!"1"]] ∧ cubesShown t = [[], [], [[t!"0"]], [], []] ∧
    (t.points[5]?.map (chequersOf 0)) = some [[t!"5"]] := by
  refine ⟨_, (set_full _ ⟨by decide, by decide, by decide, by unfold TurnsOk; decide⟩).1 (by unfold Drawable; decide),
    by decide, by decide, by decide⟩

/-! ### C61: every board of a game can be drawn -/

/-- What holds throughout a game: whoever has to answer has something to answer, also after a resignation
is refused. -/
structure Consistent (b : Board) : Prop where
  sensible : Sensible b
  answer : b.onInnerAction ≠ b.onAction → b.doubled = true ∨ (1 ≤ b.resignOffer ∧ b.resignOffer ≤ 3)
  open_ : b.onInnerAction = b.onAction → 1 ≤ b.resignOffer ∧ b.resignOffer ≤ 3 → b.doubled = true

theorem pyAdd_len {l l' : List Int} {i d : Int} (h : pyAdd l i d = .ok l') : l'.length = l.length := by
  unfold pyAdd pySet at h
  simp only [bind, Except.bind] at h
  split at h
  · cases h
  · split at h
    · cases h; simp
    · cases h

theorem addIfOn_len {l l' : List Int} {i d : Int} (h : Board.addIfOn l i d = .ok l') : l'.length = l.length := by
  unfold Board.addIfOn at h
  split at h
  · exact pyAdd_len h
  · cases h; rfl

theorem moveRows_len {pm : PartialMove} {m h m' h' : List Int} (e : Board.moveRows pm m h = .ok (m', h')) :
    m'.length = m.length ∧ h'.length = h.length := by
  unfold Board.moveRows at e
  simp only [bind, Except.bind, pure, Except.pure] at e
  cases h1 : Board.addIfOn m pm.src (-1) with
  | error _ => rw [h1] at e; cases e
  | ok m1 =>
    rw [h1] at e; dsimp only at e
    cases h2 : Board.addIfOn m1 pm.dest 1 with
    | error _ => rw [h2] at e; cases e
    | ok m2 =>
      rw [h2] at e; dsimp only at e
      have l2 := (addIfOn_len h2).trans (addIfOn_len h1)
      split at e
      · split at e
        all_goals
          split at e
          · cases e
          · rename_i a ha
            split at e
            · cases e
            · rename_i c hc
              cases e
              exact ⟨l2, (pyAdd_len hc).trans (pyAdd_len ha)⟩
      · cases e; exact ⟨l2, rfl⟩

theorem consistent_after (b : Board) (e : Edit) (hc : Consistent b)
    (he : match e with | .take _ | .drop _ | .offerResign _ _ | .acceptResign _ | .rejectResign _
                       | .pickupDice => True | _ => False) (ho : inOrder b e) : Consistent (after b e) := by
  obtain ⟨⟨hy, hh, hw, t1, t2⟩, ha, hn⟩ := hc
  cases e with
  | take w => exact ⟨⟨hy, hh, hw, t1, t1⟩, fun h => absurd rfl h, fun _ _ => ho.1⟩
  | drop w => exact ⟨⟨hy, hh, hw, t1, t2⟩, ha, hn⟩
  | acceptResign w => exact ⟨⟨hy, hh, hw, t1, t2⟩, ha, hn⟩
  | offerResign w k =>
    obtain ⟨o1, o2, o3⟩ := ho
    have hw01 : w = 0 ∨ w = 1 := o1 ▸ t1
    refine ⟨⟨hy, hh, hw, t1, ?_⟩, fun _ => Or.inr ?_, fun h => ?_⟩
    · show other w = 0 ∨ other w = 1
      unfold other; omega
    · show 1 ≤ k ∧ k ≤ 3
      omega
    · have h' : other w = b.onAction := h
      unfold other at h'; omega
  | rejectResign w =>
    obtain ⟨o1, o2⟩ := ho
    have hw01 : w = 0 ∨ w = 1 := o2 ▸ t2
    refine ⟨⟨hy, hh, hw, t1, ?_⟩, fun h => Or.inl ?_, fun _ h => ?_⟩
    · show other w = 0 ∨ other w = 1
      unfold other; omega
    · have h' : other w ≠ b.onAction := h
      refine hn ?_ o1
      unfold other at h'; omega
    · have h' : 1 ≤ (0 : Int) ∧ (0 : Int) ≤ 3 := h
      omega
  | pickupDice =>
    refine ⟨⟨hy, hh, hw, ?_, ?_⟩, fun h => ha ?_, fun h => hn ?_⟩
    · show other b.onAction = 0 ∨ other b.onAction = 1
      unfold other; omega
    · show other b.onInnerAction = 0 ∨ other b.onInnerAction = 1
      unfold other; omega
    · have h' : other b.onInnerAction ≠ other b.onAction := h
      unfold other at h'; omega
    · have h' : other b.onInnerAction = other b.onAction := h
      unfold other at h'; omega
  | set a => exact he.elim
  | setExtra a => exact he.elim
  | flip => exact he.elim
  | move a => exact he.elim
  | double a => exact he.elim

theorem flip_consistent (b : Board) (hc : Consistent b) : Consistent b.flip.st := by
  obtain ⟨⟨hy, hh, hw, t1, t2⟩, ha, hn⟩ := hc
  have key : b.flip.st = { b with
      cubeOwner := if b.cubeOwner = 3 then 3 else other b.cubeOwner
      score := (b.score.2, b.score.1)
      position := (b.position.2, b.position.1)
      onInnerAction := other b.onInnerAction
      onAction := other b.onAction } := by
    unfold Board.flip
    rcases hw with h | h | h <;> rcases t1 with h1 | h1 <;> rcases t2 with h2 | h2 <;> rw [h, h1, h2] <;> rfl
  rw [key]
  refine ⟨⟨hh, hy, ?_, ?_, ?_⟩, fun h => ha ?_, fun h => hn ?_⟩
  · show (if b.cubeOwner = 3 then (3 : Int) else other b.cubeOwner) = 0 ∨
      (if b.cubeOwner = 3 then (3 : Int) else other b.cubeOwner) = 1 ∨
      (if b.cubeOwner = 3 then (3 : Int) else other b.cubeOwner) = 3
    unfold other; split <;> omega
  · show other b.onAction = 0 ∨ other b.onAction = 1
    unfold other; omega
  · show other b.onInnerAction = 0 ∨ other b.onInnerAction = 1
    unfold other; omega
  · have h' : other b.onInnerAction ≠ other b.onAction := h
    unfold other at h'; omega
  · have h' : other b.onInnerAction = other b.onAction := h
    unfold other at h'; omega

theorem run_consistent (b : Board) (e : Edit) (hc : Consistent b)
    (he : match e with | .take _ | .drop _ | .offerResign _ _ | .acceptResign _ | .rejectResign _
                       | .pickupDice => True | _ => False) (hx : (e.run b).err = none) :
    Consistent (e.run b).st := by
  have hA := C50_action b e hc.1.turns he
  by_cases ho : inOrder b e
  · rw [hA.1 ho]
    exact consistent_after b e hc he ho
  · exact absurd hx (hA.2 ho).2

theorem step_consistent (b b' : Board) (hc : Consistent b) (h : GameStep b b') : Consistent b' := by
  cases h with
  | roll who d1 d2 hl => exact ⟨⟨hc.1.1, hc.1.2, hc.1.3, hc.1.4⟩, hc.2, hc.3⟩
  | move _ pm hm =>
    obtain ⟨⟨hy, hh, hw, ht⟩, ha, hn⟩ := hc
    unfold Board.makePartialMove at hm
    simp only [bind, Except.bind, pure, Except.pure] at hm
    split at hm
    · split at hm
      · cases hm
      · rename_i r hr
        have hl := moveRows_len (m' := r.1) (h' := r.2) hr
        cases hm
        exact ⟨⟨hl.1.trans hy, hl.2.trans hh, hw, ht⟩, ha, hn⟩
    · split at hm
      · split at hm
        · cases hm
        · rename_i r hr
          have hl := moveRows_len (m' := r.1) (h' := r.2) hr
          cases hm
          exact ⟨⟨hl.2.trans hy, hl.1.trans hh, hw, ht⟩, ha, hn⟩
      · cases hm
  | act e he hx =>
    cases e with
    | double w =>
      have hD := C50_double b w hc.1.turns hx
      obtain ⟨⟨hy, hh, hw, t1, t2⟩, ha, hn⟩ := hc
      have hw01 : w = 0 ∨ w = 1 := hD.1 ▸ t1
      show Consistent (b.double w).st
      rw [hD.2.2.2.2]
      refine ⟨⟨hy, hh, hw, t1, ?_⟩, fun _ => Or.inl rfl, fun _ _ => rfl⟩
      show other w = 0 ∨ other w = 1
      unfold other; omega
    | flip => exact flip_consistent b hc
    | set a => exact he.elim
    | setExtra a => exact he.elim
    | move a => exact he.elim
    | take w => exact run_consistent b _ hc trivial hx
    | drop w => exact run_consistent b _ hc trivial hx
    | offerResign w k => exact run_consistent b _ hc trivial hx
    | acceptResign w => exact run_consistent b _ hc trivial hx
    | rejectResign w => exact run_consistent b _ hc trivial hx
    | pickupDice => exact run_consistent b _ hc trivial hx

theorem inGame_consistent (b : Board) (h : InGame b) : Consistent b := by
  induction h with
  | start b hs h1 h2 h3 => exact ⟨hs, fun h => absurd h1 h, fun _ h => absurd h (by omega)⟩
  | step b b' _ hst ih => exact step_consistent b b' ih hst

/-- Every board of a game, whatever the players do that the editor accepts, can be drawn. -/
theorem C61_drawable (b : Board) (h : InGame b) : ∃ t, ETree.create.set b = .ok t := by
  have hc : Consistent b := inGame_consistent b h
  refine (C39_draws b hc.1).1 ?_
  by_cases hi : b.onInnerAction = b.onAction
  · exact Or.inr (Or.inl hi)
  · exact Or.inr (Or.inr (hc.2 hi))

/-- In particular the board after the players have doubled, taken and resigned. -/
example : InGame resigned := by
  have s0 : InGame ({ gameState := 1 } : Board) :=
    .start _ ⟨by decide, by decide, by decide, by unfold TurnsOk; decide⟩ rfl rfl rfl
  have s1 := InGame.step _ _ s0 (.act _ (.double 0) trivial (by decide))
  have s2 := InGame.step _ _ s1 (.act _ (.take 1) trivial (by decide))
  have s3 := InGame.step _ _ s2 (.act _ (.offerResign 0 1) trivial (by decide))
  exact s3

end Bglib
