import Verif.Model.Fibs
import Verif.Props.Xgid
/-
C09, C43: FIBS board lines.
-/
namespace Bglib
open Spec

theorem mapM_pyInt (nums : List Int) : (nums.map pyStr).mapM pyInt = some nums := by
  induction nums with
  | nil => rfl
  | cons n ns ih => simp [List.mapM_cons, pyInt_pyStr, ih]

theorem fibsParse_line (you him : Text) (nums : List Int) (h1 : ':' ∉ you) (h2 : ':' ∉ him)
    (hl : nums.length = 50) :
    fibsParse (fibsLine you him nums) = some {
      matchlength := fibsNum nums 3, yourScore := fibsNum nums 4, hisScore := fibsNum nums 5,
      board := (nums.take (32 - 3)).drop (6 - 3), turn := fibsNum nums 32,
      yourDice := (fibsNum nums 33, fibsNum nums 34), hisDice := (fibsNum nums 35, fibsNum nums 36),
      doublingCube := fibsNum nums 37, youMayDouble := fibsNum nums 38, heMayDouble := fibsNum nums 39,
      wasDoubled := fibsNum nums 40, yourColour := fibsNum nums 41, yourDirection := fibsNum nums 42 } := by
  have hs : splitChar ':' (fibsLine you him nums) = ['b','o','a','r','d'] :: you :: him :: nums.map pyStr := by
    apply splitChar_join _ (by simp)
    intro f hf
    simp only [List.mem_cons, List.mem_map] at hf
    rcases hf with rfl | rfl | rfl | ⟨n, _, rfl⟩
    · decide
    · exact h1
    · exact h2
    · exact pyStr_no_colon n
  unfold fibsParse
  simp only [hs, List.drop_succ_cons, List.drop_zero, mapM_pyInt]
  rw [if_neg (by omega)]
  rfl

theorem board_getD (nums : List Int) (k : Nat) (hk : k < 26) :
    ((nums.take (32 - 3)).drop (6 - 3)).getD k 0 = fibsNum nums (6 + k) := by
  unfold fibsNum
  simp only [List.getD_eq_getElem?_getD, List.getElem?_drop, List.getElem?_take]
  rw [if_pos (by omega), show 6 - 3 + k = 6 + k - 3 by omega]

theorem chequers_count (c x : Int) (hc : c = 1 ∨ c = -1) :
    yourChequers c x = fibsCount c x ∧ hisChequers c x = fibsCount (-c) x := by
  unfold yourChequers hisChequers fibsCount
  rcases hc with rfl | rfl <;> constructor <;> simp <;> split <;> omega

theorem cnt_map (f : Int → Int) (l : List Int) (i : Nat) (hi : i < l.length) :
    cnt (l.map f) i = f (l.getD i 0) := by
  simp [cnt, List.getD_eq_getElem?_getD, hi]

theorem getD_reverse (l : List Int) (i : Nat) (hi : i < l.length) :
    l.reverse.getD i 0 = l.getD (l.length - 1 - i) 0 := by
  simp [List.getD_eq_getElem?_getD, List.getElem?_reverse hi]

/-- The two rows of the FIBS array, by place. -/
theorem fibs_rows (bd : List Int) (hl : bd.length = 26) :
    ((bd.take 25).drop 1 ++ [bd.getD 25 0]).length = 25 ∧
    (bd.getD 0 0 :: (bd.take 25).drop 1).reverse.length = 25 ∧
    (∀ i < 25, ((bd.take 25).drop 1 ++ [bd.getD 25 0]).getD i 0 = bd.getD (i + 1) 0) ∧
    (∀ i < 25, (bd.getD 0 0 :: (bd.take 25).drop 1).reverse.getD i 0 = bd.getD (24 - i) 0) := by
  have e1 : (bd.take 25).drop 1 ++ [bd.getD 25 0] = bd.drop 1 := by
    apply List.ext_getElem?
    intro i
    by_cases hi : i < 24
    · rw [List.getElem?_append_left (by simp; omega)]
      simp [show i + 1 < 25 by omega]
    · rw [List.getElem?_append_right (by simp; omega)]
      by_cases hi2 : i = 24
      · subst hi2; simp [hl]
      · simp [hl, show ¬ i < 25 by omega]; omega
  have e2 : bd.getD 0 0 :: (bd.take 25).drop 1 = bd.take 25 := by
    match bd, hl with
    | a :: bd', _ => simp
  rw [e1, e2]
  refine ⟨by simp [hl], by simp [hl], ?_, ?_⟩
  · intro i hi; simp [List.getD_eq_getElem?_getD]
  · intro i hi
    rw [getD_reverse _ _ (by simp [hl]; omega)]
    simp only [List.length_take, hl, List.getD_eq_getElem?_getD, List.getElem?_take]
    rw [if_pos (by omega)]
    congr 2

theorem fibsApply_position (b : Board) (f : FibsState) : (fibsApply b f).board.position = f.position := by
  have hc : ∀ b : Board, (fibsCube b f).position = b.position := by
    intro b; unfold fibsCube; split
    · rfl
    · split
      · rfl
      · split <;> rfl
  unfold fibsApply
  simp only []
  split
  · split <;> simp [hc]
  · split <;> simp [hc]

/-- **C09** For every FIBS board line, both colours and both directions, decoding puts on every place of
each player exactly the chequers of that player's colour in the entry FIBS documents for the place. -/
theorem C09_position (b0 : Board) (you him : Text) (nums : List Int) (h1 : ':' ∉ you) (h2 : ':' ∉ him)
    (hl : nums.length = 50) (hc : fibsNum nums 41 = 1 ∨ fibsNum nums 41 = -1)
    (hd : fibsNum nums 42 = 1 ∨ fibsNum nums 42 = -1) :
    ∃ r, fibsDecode b0 (fibsLine you him nums) = some r ∧
      r.board.position.1.length = 25 ∧ r.board.position.2.length = 25 ∧
      ∀ p < 25,
        cnt r.board.position.1 p =
          fibsCount (fibsNum nums 41) (fibsNum nums (6 + fibsPlace (fibsNum nums 42) p)) ∧
        cnt r.board.position.2 p =
          fibsCount (- fibsNum nums 41) (fibsNum nums (6 + fibsPlace (- fibsNum nums 42) p)) := by
  refine ⟨_, by unfold fibsDecode; rw [fibsParse_line you him nums h1 h2 hl]; rfl, ?_⟩
  rw [fibsApply_position]
  have hbl : ((nums.take (32 - 3)).drop (6 - 3)).length = 26 := by simp [hl]
  obtain ⟨r1, r2, r3, r4⟩ := fibs_rows _ hbl
  unfold FibsState.position
  simp only []
  rcases hd with hd | hd
  · rw [if_neg (by omega)]
    refine ⟨by rw [List.length_map, r2], by rw [List.length_map, r1], ?_⟩
    intro p hp
    simp only [hd]
    rw [cnt_map _ _ _ (by rw [r2]; exact hp), cnt_map _ _ _ (by rw [r1]; exact hp), r3 p hp, r4 p hp,
      board_getD _ _ (by omega), board_getD _ _ (by omega), (chequers_count _ _ hc).1,
      (chequers_count _ _ hc).2]
    exact ⟨rfl, rfl⟩
  · rw [if_pos (by omega)]
    refine ⟨by rw [List.length_map, r1], by rw [List.length_map, r2], ?_⟩
    intro p hp
    simp only [hd]
    rw [cnt_map _ _ _ (by rw [r1]; exact hp), cnt_map _ _ _ (by rw [r2]; exact hp), r3 p hp, r4 p hp,
      board_getD _ _ (by omega), board_getD _ _ (by omega), (chequers_count _ _ hc).1,
      (chequers_count _ _ hc).2]
    exact ⟨rfl, rfl⟩

/-- The numbers of the project's own test line. -/
def exFibs : List Int :=
  [3,0,0, 0,-2,0,0,0,0,5,0,3,0,0,0,-5,5,0,0,0,-3,0,-5,0,0,0,0,2,0, 1,6,2,0,0,1,1,1,0,1,-1,0,25,0,0,0,0,2,0,0,0]

example : exFibs.length = 50 ∧ fibsNum exFibs 41 = 1 ∧ fibsNum exFibs 42 = -1 := by decide

/-! ### C43 -/

theorem fibsLogAux_pow (k : Nat) : ∀ f, 2 ^ k < f → fibsLogAux f (2 ^ k) = k := by
  induction k with
  | zero => intro f hf; cases f with
    | zero => simp at hf
    | succ f => simp [fibsLogAux]
  | succ k ih =>
    intro f hf
    have h2 : 2 ^ (k + 1) / 2 = 2 ^ k := by rw [Nat.pow_succ]; omega
    have hp := Nat.two_pow_pos k
    cases f with
    | zero => simp at hf
    | succ f =>
      rw [fibsLogAux, if_pos (by rw [Nat.pow_succ]; omega), h2, ih f (by rw [Nat.pow_succ] at hf; omega)]

/-- **C43** (what holds) When it is your turn, decoding succeeds and gives the cube (a power of two), its
owner, the turn, your dice, the match length and the score as the line states them; after a double the
opponent is asked.  Missing: the lines in which it is the opponent's turn. -/
theorem C43_your_turn_partial (b0 : Board) (you him : Text) (nums : List Int) (k : Nat)
    (h1 : ':' ∉ you) (h2 : ':' ∉ him) (hl : nums.length = 50)
    (hcube : fibsNum nums 37 = ((2 ^ k : Nat) : Int))
    (hy : fibsNum nums 38 = 0 ∨ fibsNum nums 38 = 1) (hh : fibsNum nums 39 = 0 ∨ fibsNum nums 39 = 1)
    (hturn : fibsNum nums 32 = fibsNum nums 41) :
    ∃ b, fibsDecode b0 (fibsLine you him nums) = some ⟨b, none⟩ ∧
      b.cube = k ∧ b.cubeOwner = fibsOwner (fibsNum nums 38) (fibsNum nums 39) ∧
      (b.crawford = true ↔ fibsNum nums 38 = 0 ∧ fibsNum nums 39 = 0) ∧
      b.onAction = 0 ∧ b.gameState = 1 ∧ b.rolled = (fibsNum nums 33, fibsNum nums 34) ∧
      b.onInnerAction = (if fibsNum nums 40 = 0 then 0 else 1) ∧
      b.doubled = (if fibsNum nums 40 = 0 then b0.doubled else true) ∧
      b.resignOffer = 0 ∧ b.matchLength = fibsNum nums 3 ∧ b.score = (fibsNum nums 4, fibsNum nums 5) := by
  unfold fibsDecode
  rw [fibsParse_line you him nums h1 h2 hl]
  simp only [Option.map_some, fibsApply, hturn, if_true]
  refine ⟨_, rfl, ?_⟩
  have hlog : fibsLog (fibsNum nums 37) = k := by
    unfold fibsLog
    rw [hcube]
    exact fibsLogAux_pow k _ (by rw [Int.toNat_natCast]; omega)
  rcases hy with hy | hy <;> rcases hh with hh | hh <;>
    by_cases hw : fibsNum nums 40 = 0 <;>
    simp [fibsCube, fibsOwner, hy, hh, hw, hlog, CENTER, YOU, HIM, ON_GOING, RESIGN_NONE]

example : fibsNum exFibs 37 = ((2 ^ 0 : Nat) : Int) ∧ fibsNum exFibs 38 = 1 ∧ fibsNum exFibs 39 = 1 ∧
    fibsNum exFibs 32 = fibsNum exFibs 41 := by decide

/-- **C43** is false of the code: whenever it is not your turn (the opponent's, or nobody's) decoding raises
`NameError`. -/
theorem C43_other_turn_false (b0 : Board) (you him : Text) (nums : List Int)
    (h1 : ':' ∉ you) (h2 : ':' ∉ him) (hl : nums.length = 50) (hturn : fibsNum nums 32 ≠ fibsNum nums 41) :
    ∃ b, fibsDecode b0 (fibsLine you him nums) = some ⟨b, some .nameError⟩ := by
  unfold fibsDecode
  rw [fibsParse_line you him nums h1 h2 hl]
  simp only [Option.map_some, fibsApply, hturn, if_false]
  split
  · exact ⟨_, rfl⟩
  · exact ⟨_, rfl⟩

example : (exFibs.set 29 (-1)).length = 50 ∧
    fibsNum (exFibs.set 29 (-1)) 32 ≠ fibsNum (exFibs.set 29 (-1)) 41 := by decide

end Bglib
