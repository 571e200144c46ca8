import Verif.Spec.Picture
import Verif.Lemmas.MoveFactory
import Verif.Lemmas.Text
/-
The tree of a board, piece by piece.
-/
namespace Bglib
open Spec Img

/-- The chequer elements added for a count. -/
def addedC (p n : Int) : List Tree := if n = 0 then [] else [.node ⟨.chequer, playerAttr p, [pyStr n]⟩ []]

theorem addChequers_eq (t : Tree) (p n : Int) (h : EName.chequer ∈ t.elem.name.takes.1) :
    addChequers t p n = .ok (.node t.elem (t.kids ++ addedC p n)) := by
  unfold addChequers addedC
  by_cases hn : n = 0
  · rw [if_pos hn, if_pos hn, List.append_nil]
    cases t; rfl
  · rw [if_neg hn, if_neg hn]
    simp only [chequerElem, Tree.write, newElem, Tree.elem, EName.takes, if_true, Tree.append, Tree.kids,
      List.nil_append]
    exact if_pos h

theorem addLeaf_eq (t : Tree) (n : EName) (attrs : List (Text × Value)) (s : Text)
    (h1 : n.takes.2 = true) (h2 : n ∈ t.elem.name.takes.1) :
    addLeaf t n attrs s = .ok (.node t.elem (t.kids ++ [.node ⟨n, attrs, [s]⟩ []])) := by
  unfold addLeaf
  simp only [newElem, Tree.write, Tree.elem, h1, if_true, Tree.append, Tree.kids, List.nil_append]
  exact if_pos h2

/-- The chequers of point `i`. -/
def pointKids (b : Board) (i : Nat) : List Tree :=
  if i ≤ 12 then addedC YOU (cnt b.position.1 (i - 1)) ++ addedC HIM (cnt b.position.2 (24 - i))
  else addedC HIM (cnt b.position.2 (24 - i)) ++ addedC YOU (cnt b.position.1 (i - 1))

theorem setPoint_eq (b : Board) (hy : b.position.1.length = 25) (hh : b.position.2.length = 25) (i : Nat)
    (h1 : 1 ≤ i) (h2 : i ≤ 24) :
    setPoint b (newPoint i) i = .ok (.node (newPoint i).elem (pointKids b i)) := by
  unfold setPoint pointKids
  rw [pyGet_cnt hy (by omega) (by omega), pyGet_cnt hh (by omega) (by omega)]
  simp only [bind, Except.bind]
  rw [show ((i : Int) - 1).toNat = i - 1 by omega, show (24 - (i : Int)).toNat = 24 - i by omega]
  have hp : EName.chequer ∈ (newPoint i).elem.name.takes.1 := by simp [newPoint, Tree.elem, EName.takes]
  split
  · rw [addChequers_eq _ _ _ hp]
    dsimp only
    rw [addChequers_eq (.node _ _) _ _ (by simpa [Tree.elem] using hp)]
    simp [newPoint, Tree.elem, Tree.kids]
  · rw [addChequers_eq _ _ _ hp]
    dsimp only
    rw [addChequers_eq (.node _ _) _ _ (by simpa [Tree.elem] using hp)]
    simp [newPoint, Tree.elem, Tree.kids]

/-- The point `i` with its chequers. -/
def fullPoint (b : Board) (i : Nat) : Tree := .node (newPoint i).elem (pointKids b i)

theorem setPoints_eq (b : Board) (hy : b.position.1.length = 25) (hh : b.position.2.length = 25) (n i : Nat)
    (h1 : 1 ≤ i) (h2 : i + n ≤ 25) :
    setPoints b i ((List.range n).map fun k => newPoint (k + i)) =
      .ok ((List.range n).map fun k => fullPoint b (k + i)) := by
  induction n generalizing i with
  | zero => rfl
  | succ n ih =>
    rw [List.range_succ_eq_map, List.map_cons, List.map_cons, List.map_map, List.map_map]
    unfold setPoints
    simp only [Nat.zero_add, bind, Except.bind, pure, Except.pure]
    rw [setPoint_eq b hy hh i h1 (by omega)]
    dsimp only
    have := ih (i + 1) (by omega) (by omega)
    have e : ∀ f : Nat → Tree, (f ∘ Nat.succ) = fun k => f (k + 1) := fun f => rfl
    simp only [Function.comp_def, Nat.succ_eq_add_one, show ∀ k, k + 1 + i = k + (i + 1) from fun k => by omega]
    rw [this]
    rfl

/-- The tree before cube and turn. -/
def baseTree (b : Board) : ETree where
  action := newElem .action []
  length := .node ⟨.length, [], [pyStr b.matchLength]⟩ []
  crawford := .node ⟨.crawford, [], [if b.crawford then t!"True" else t!"False"]⟩ []
  score := (.node ⟨.score, playerAttr YOU, [pyStr b.score.1]⟩ [], .node ⟨.score, playerAttr HIM, [pyStr b.score.2]⟩ [])
  cubeholder := newElem .cubeholder []
  field := (newElem .field (playerAttr YOU), newElem .field (playerAttr HIM))
  home := (.node ⟨.home, playerAttr YOU, []⟩ (addedC YOU (15 - b.position.1.sum)),
    .node ⟨.home, playerAttr HIM, []⟩ (addedC HIM (15 - b.position.2.sum)))
  bar := (.node ⟨.bar, playerAttr YOU, []⟩ (addedC YOU (cnt b.position.1 24)),
    .node ⟨.bar, playerAttr HIM, []⟩ (addedC HIM (cnt b.position.2 24)))
  points := (List.range 24).map fun k => fullPoint b (k + 1)

/-- A cube element. -/
def cubeLeaf (n : Nat) : Tree := .node ⟨.cube, [], [decimal n]⟩ []

/-- The tree with the cube at its owner. -/
def cubeTree (b : Board) : ETree :=
  if b.doubled = true ∧ b.onInnerAction ≠ b.onAction then baseTree b
  else if b.cubeOwner = YOU then { baseTree b with
    home := (.node (baseTree b).home.1.elem ((baseTree b).home.1.kids ++ [cubeLeaf b.cube]), (baseTree b).home.2) }
  else if b.cubeOwner = HIM then { baseTree b with
    home := ((baseTree b).home.1, .node (baseTree b).home.2.elem ((baseTree b).home.2.kids ++ [cubeLeaf b.cube])) }
  else { baseTree b with cubeholder := .node ⟨.cubeholder, [], []⟩ [cubeLeaf b.cube] }

theorem set_eq (b : Board) (hs : Sensible b) :
    ETree.create.set b =
      if b.onAction = YOU then setTurn b (cubeTree b) YOU HIM else setTurn b (cubeTree b) HIM YOU := by
  have hpts : setPoints b 1 ETree.create.points = .ok (baseTree b).points :=
    setPoints_eq b hs.you hs.him 24 1 (by omega) (by omega)
  have hcube : setCube b (baseTree b) = .ok (cubeTree b) := by
    have l1 := addLeaf_eq (baseTree b).home.1 .cube [] (decimal b.cube) rfl (by simp [baseTree, newElem, Tree.elem, EName.takes])
    have l2 := addLeaf_eq (baseTree b).home.2 .cube [] (decimal b.cube) rfl (by simp [baseTree, newElem, Tree.elem, EName.takes])
    have l3 := addLeaf_eq (baseTree b).cubeholder .cube [] (decimal b.cube) rfl (by simp [baseTree, newElem, Tree.elem, EName.takes])
    unfold setCube cubeTree
    simp only [bind, Except.bind, pure, Except.pure, l1, l2, l3]
    by_cases hp : b.doubled = true ∧ b.onInnerAction ≠ b.onAction
    · rw [if_pos hp, if_neg (by simp [hp.1, hp.2])]
    · have hc : (!b.doubled || decide (b.onInnerAction = b.onAction)) = true := by
        cases hd : b.doubled with
        | false => rfl
        | true => simpa [hd] using hp
      rw [if_pos hc, if_neg hp]
      by_cases h0 : b.cubeOwner = YOU
      · rw [if_pos h0, if_pos h0]; rfl
      · rw [if_neg h0, if_neg h0]
        by_cases h1 : b.cubeOwner = HIM
        · rw [if_pos h1, if_pos h1]; rfl
        · rw [if_neg h1, if_neg h1]
          have h3 : b.cubeOwner = CENTER := by
            rcases hs.owner with h | h | h
            · exact absurd h h0
            · exact absurd h h1
            · exact h
          rw [if_pos h3]
          rfl
  unfold ETree.set
  simp only [bind, Except.bind]
  have w1 : ETree.create.score.1.write (pyStr b.score.1) = .ok (baseTree b).score.1 := rfl
  have w2 : ETree.create.score.2.write (pyStr b.score.2) = .ok (baseTree b).score.2 := rfl
  have w3 : ETree.create.length.write (pyStr b.matchLength) = .ok (baseTree b).length := rfl
  have w4 : ETree.create.crawford.write (if b.crawford then t!"True" else t!"False") = .ok (baseTree b).crawford := rfl
  rw [w1, w2, w3, w4, hpts, pyGet_cnt hs.you (by omega) (by omega), pyGet_cnt hs.him (by omega) (by omega)]
  dsimp only
  have a1 := addChequers_eq ETree.create.bar.1 YOU (cnt b.position.1 24) (by decide)
  have a2 := addChequers_eq ETree.create.bar.2 HIM (cnt b.position.2 24) (by decide)
  have a3 := addChequers_eq ETree.create.home.1 YOU (15 - b.position.1.sum) (by decide)
  have a4 := addChequers_eq ETree.create.home.2 HIM (15 - b.position.2.sum) (by decide)
  rw [show (24 : Int).toNat = 24 from rfl, a1, a2, a3, a4]
  dsimp only
  have hb : (⟨ETree.create.action, (baseTree b).length, (baseTree b).crawford,
      ((baseTree b).score.1, (baseTree b).score.2), ETree.create.cubeholder, ETree.create.field,
      (.node ETree.create.home.1.elem (ETree.create.home.1.kids ++ addedC YOU (15 - b.position.1.sum)),
       .node ETree.create.home.2.elem (ETree.create.home.2.kids ++ addedC HIM (15 - b.position.2.sum))),
      (.node ETree.create.bar.1.elem (ETree.create.bar.1.kids ++ addedC YOU (cnt b.position.1 24)),
       .node ETree.create.bar.2.elem (ETree.create.bar.2.kids ++ addedC HIM (cnt b.position.2 24))),
      (baseTree b).points⟩ : ETree) = baseTree b := rfl
  rw [hb, hcube]
  dsimp only
  rcases hs.turns.1 with h | h
  · have h0 : b.onAction = YOU := h
    rw [if_pos h0, if_pos h0]
  · have h0 : b.onAction ≠ YOU := by rw [h]; decide
    have h1 : b.onAction = HIM := h
    rw [if_neg h0, if_neg h0, if_pos h1]

/-- The action element. -/
def actionTree (p : Int) (s : Text) : Tree := .node ⟨.action, [(t!"player", .str (playerText p))], [s]⟩ []

theorem setAction_eq (t : ETree) (p : Int) (s : Text) (h : t.action = newElem .action []) (hp : p = 0 ∨ p = 1) :
    setAction t p s = .ok { t with action := actionTree p s } := by
  unfold setAction
  rw [h]
  rcases hp with rfl | rfl <;> rfl

/-- A field with more in it. -/
def withField (t : ETree) (p : Int) (l : List Tree) : ETree :=
  if p = YOU then { t with field := (.node t.field.1.elem (t.field.1.kids ++ l), t.field.2) }
  else { t with field := (t.field.1, .node t.field.2.elem (t.field.2.kids ++ l)) }

theorem addField_eq (t : ETree) (p : Int) (n : EName) (attrs : List (Text × Value)) (s : Text)
    (h1 : t.field.1.elem.name = .field) (h2 : t.field.2.elem.name = .field) (hn : n.takes.2 = true)
    (hm : n ∈ EName.field.takes.1) :
    addField t p n attrs s = .ok (withField t p [.node ⟨n, attrs, [s]⟩ []]) := by
  unfold addField withField
  split
  · rw [addLeaf_eq _ _ _ _ hn (by rw [h1]; exact hm)]; rfl
  · rw [addLeaf_eq _ _ _ _ hn (by rw [h2]; exact hm)]; rfl

/-- What is put into which field. -/
def fieldKids (b : Board) : Int × List Tree :=
  if b.rolled = (0, 0) then
    if !b.doubled && decide (b.onInnerAction ≠ b.onAction) then
      (other b.onAction, [.node ⟨.resign, [], [pyStr b.resignOffer]⟩ []])
    else if b.doubled && decide (b.onInnerAction ≠ b.onAction) then (other b.onAction, [cubeLeaf (b.cube + 1)])
    else (0, [])
  else (b.onAction, [.node ⟨.die, [(t!"id", .str t!"right")], [pyStr b.rolled.1]⟩ [],
    .node ⟨.die, [(t!"id", .str t!"left")], [pyStr b.rolled.2]⟩ []])

/-- Who is named in the action, and the text. -/
def actionOf (b : Board) : Int × Text :=
  if b.rolled = (0, 0) then
    if b.onInnerAction = b.onAction then
      (b.onAction, if b.doubled then (phrases b.onAction).took else (phrases b.onAction).roll)
    else if b.doubled then (YOU, (phrases b.onAction).doubled)
    else (other b.onAction, (phrases b.onAction).resign)
  else (b.onAction, (phrases b.onAction).move)

/-- The picture. -/
def fullTree (b : Board) : ETree :=
  { withField (cubeTree b) (fieldKids b).1 (fieldKids b).2 with
    action := actionTree (actionOf b).1 (actionOf b).2 }

theorem cubeTree_action (b : Board) : (cubeTree b).action = newElem .action [] := by
  unfold cubeTree; repeat' split
  all_goals rfl

theorem cubeTree_field (b : Board) :
    (cubeTree b).field = (newElem .field (playerAttr YOU), newElem .field (playerAttr HIM)) := by
  unfold cubeTree; repeat' split
  all_goals rfl

theorem setTurn_eq (b : Board) (p o : Int) (hp : b.onAction = p) (ho : o = other p) (ht : TurnsOk b) :
    setTurn b (cubeTree b) p o =
      if b.rolled ≠ (0, 0) ∨ b.onInnerAction = b.onAction ∨ b.doubled = true ∨
          (1 ≤ b.resignOffer ∧ b.resignOffer ≤ 3) then .ok (fullTree b) else .error .assertion := by
  have hf := cubeTree_field b
  have ha := cubeTree_action b
  have f1 : (cubeTree b).field.1.elem.name = .field := by rw [hf]; rfl
  have f2 : (cubeTree b).field.2.elem.name = .field := by rw [hf]; rfl
  have hw : ∀ (t : ETree) q l, (withField t q l).action = t.action := by
    intro t q l; unfold withField; split <;> rfl
  have h01 : p = 0 ∨ p = 1 := hp ▸ ht.1
  have o01 : o = 0 ∨ o = 1 := by rcases h01 with h | h <;> subst h <;> simp [ho, other]
  have hmem : b.resignOffer ∈ [RESIGN_SINGLE, RESIGN_GAMMON, RESIGN_BACKGAMMON] ↔
      (1 ≤ b.resignOffer ∧ b.resignOffer ≤ 3) := by
    simp only [RESIGN_SINGLE, RESIGN_GAMMON, RESIGN_BACKGAMMON, List.mem_cons, List.not_mem_nil, or_false]
    omega
  have w0 : ∀ t : ETree, withField t 0 [] = t := by
    intro t
    unfold withField
    rw [if_pos (show (0 : Int) = YOU from rfl), List.append_nil]
    obtain ⟨_, _, _, _, _, ⟨f, g⟩, _, _, _⟩ := t
    cases f
    rfl
  have hio : b.onInnerAction = o ↔ b.onInnerAction ≠ p := by
    rcases ht.2 with h | h <;> rcases h01 with h' | h' <;> simp [h, h', ho, other]
  unfold setTurn fullTree fieldKids actionOf
  simp only [bind, Except.bind]
  by_cases hr : b.rolled = (0, 0)
  · rw [if_pos hr, if_pos hr, if_pos hr]
    by_cases hi : b.onInnerAction = p
    · rw [if_pos (Or.inr (Or.inl (hi.trans hp.symm)))]
      have hno : ¬ b.onInnerAction = o := by rw [hio]; simpa using hi
      cases hd : b.doubled with
      | false => simp [hi, hp, w0, setAction_eq _ _ _ ha h01]
      | true => simp [hi, hp, w0, setAction_eq _ _ _ ha h01, show p ≠ o from fun h => hno (hi.trans h)]
    · have hoo := hio.2 hi
      have hpo : o ≠ p := fun h => hi (hoo.trans h)
      cases hd : b.doubled with
      | false =>
        by_cases hres : 1 ≤ b.resignOffer ∧ b.resignOffer ≤ 3
        · have hm := hmem.2 hres
          rw [if_pos (Or.inr (Or.inr (Or.inr hres)))]
          simp only [hoo, hp, Bool.not_false, Bool.true_and, hpo, decide_false, Bool.false_eq_true, if_false,
            decide_true, hm, Bool.and_self, if_true, setAction_eq _ _ _ ha o01, ne_eq, not_false_eq_true]
          rw [addField_eq (h1 := ?_) (h2 := ?_) (hn := ?_) (hm := ?_)]
          any_goals first | exact f1 | exact f2 | rfl | decide
          rw [← ho]
          unfold withField
          split <;> rfl
        · have hnd : ¬ (b.rolled ≠ (0, 0) ∨ b.onInnerAction = b.onAction ∨ false = true ∨
              (1 ≤ b.resignOffer ∧ b.resignOffer ≤ 3)) := by
            rw [hp]; simp only [hr, ne_eq, not_true_eq_false, hi, false_or, Bool.false_eq_true]; exact hres
          refine Eq.trans ?_ (if_neg hnd).symm
          have hm : ¬ b.resignOffer ∈ [RESIGN_SINGLE, RESIGN_GAMMON, RESIGN_BACKGAMMON] := fun h => hres (hmem.1 h)
          simp only [Bool.not_false, Bool.true_and, hi, decide_false, hm, Bool.and_false,
            Bool.false_eq_true, if_false, Bool.false_and]
      | true =>
        rw [if_pos (Or.inr (Or.inr (Or.inl rfl)))]
        simp only [hoo, hp, Bool.not_true, Bool.false_and, Bool.false_eq_true, if_false, decide_true,
          Bool.and_self, if_true, hpo, ne_eq, not_false_eq_true]
        rw [addField_eq (h1 := ?_) (h2 := ?_) (hn := ?_) (hm := ?_)]
        any_goals first | exact f1 | exact f2 | rfl | decide
        dsimp only
        rw [setAction_eq _ _ _ ((hw _ _ _).trans ha) (show YOU = 0 ∨ YOU = 1 from Or.inl rfl), ← ho]
        rfl
  · rw [if_neg hr, if_neg hr, if_neg hr, if_pos (Or.inl hr), setAction_eq _ _ _ ha h01]
    dsimp only
    rw [addField_eq (h1 := ?_) (h2 := ?_) (hn := ?_) (hm := ?_)]
    any_goals first | exact f1 | exact f2 | rfl | decide
    dsimp only
    rw [addField_eq (h1 := ?_) (h2 := ?_) (hn := ?_) (hm := ?_)]
    any_goals first | rfl | decide
    any_goals (unfold withField; split <;> first | exact f1 | exact f2)
    rw [hp]
    unfold withField
    by_cases hy : p = YOU
    · simp [hy, Tree.elem, Tree.kids]
    · simp [hy, Tree.elem, Tree.kids]

/-- The result of `set`. -/
theorem set_full (b : Board) (hs : Sensible b) :
    (Drawable b → ETree.create.set b = .ok (fullTree b)) ∧
    (¬ Drawable b → ETree.create.set b = .error .assertion) := by
  have key : ETree.create.set b =
      if b.rolled ≠ (0, 0) ∨ b.onInnerAction = b.onAction ∨ b.doubled = true ∨
          (1 ≤ b.resignOffer ∧ b.resignOffer ≤ 3) then .ok (fullTree b) else .error .assertion := by
    rw [set_eq b hs]
    rcases hs.turns.1 with h | h
    · rw [if_pos (show b.onAction = YOU from h)]
      exact setTurn_eq b YOU HIM h rfl hs.turns
    · rw [if_neg (show ¬ b.onAction = YOU by rw [h]; decide)]
      exact setTurn_eq b HIM YOU h rfl hs.turns
  exact ⟨fun h => key.trans (if_pos h), fun h => key.trans (if_neg h)⟩

end Bglib
