import Verif.Lemmas.FibsBoard
import Verif.Model.FibsShort
import Verif.Props.Cookie
/-
C90: the board lines of a session are recognised and read.
-/
namespace Bglib
open Spec

theorem name_no_colon {s : Text} (h : IsName s) : ':' ∉ s := by
  intro hm
  have := h.2 _ hm
  revert this; decide

/-- **C90**, recognition: if the pattern of good lines comes before that of damaged ones in the dictionary of the class,
then after any messages, among them no damaged board line, every board line is recognised. -/
theorem C90_recognised_partial (order : Phase → List Text) (ho : ValidOrder order)
    (hb : Before t!"FIBS_Board" t!"FIBS_BAD_Board" (order .run)) (msgs : List Text)
    (hs : ∀ s ∈ msgs, BoardLine s ∨ ¬ LikeBoard s) (hp : (Monster.new.after order msgs).phase = .run)
    (line : Text) (hl : BoardLine line) :
    ((Monster.new.after order msgs).makeCookie order line).1 = .ok t!"FIBS_Board" := by
  obtain ⟨hi, hc⟩ := clean_after order ho hb msgs hs Monster.new new_inv (by decide)
  obtain ⟨hm, hk⟩ := line_matches line hl
  obtain ⟨m', h1, _⟩ := makeCookie_spec (Monster.new.after order msgs) order line ho hi
  rw [h1]
  have := (answer_board order ho _ hi hp line hk).1 hm (before_append hc (by rw [hp]; exact hb))
  rw [answer, if_neg (fun h => like_ne_nil hk h.2), this]
  rfl

/-- **C90**: after any messages whatever, what begins like a board line is taken for a good or a damaged board line; for
a good one only if it is two names and numbers behind `board:`. -/
theorem C90_answers (order : Phase → List Text) (ho : ValidOrder order) (m : Monster) (hr : Reachable order m)
    (hp : m.phase = .run) (line : Text) (hl : LikeBoard line) :
    ((m.makeCookie order line).1 = .ok t!"FIBS_Board" ∧
      ∃ you him r e, IsName you ∧ IsName him ∧ r ≠ [] ∧ (∀ c ∈ r, c.isDigit ∨ c = ':' ∨ c = '-') ∧
        (e = [] ∨ e = ['\n']) ∧ line = t!"board:" ++ (you ++ (t!":" ++ (him ++ (t!":" ++ (r ++ e)))))) ∨
    (m.makeCookie order line).1 = .ok t!"FIBS_BAD_Board" := by
  have hi := reachable_inv order ho m hr
  obtain ⟨m', h1, _⟩ := makeCookie_spec m order line ho hi
  obtain ⟨_, _, _, h⟩ := answer_board order ho m hi hp line hl
  rw [h1, answer, if_neg (fun h => like_ne_nil hl h.2)]
  rcases h with h | h
  · left
    refine ⟨by rw [h]; rfl, ?_⟩
    have := List.find?_some h
    rw [hp] at this
    obtain ⟨you, him, r, e, hy, hh, hr, hc, he, hl⟩ := (matches_board line).1 this
    refine ⟨you, him, r, e, hy, hh, hr, fun c hcm => ?_, he, hl⟩
    have := hc c hcm
    simp only [numberSign, CharSet.mem, List.any_cons, List.any_nil, Bool.or_false, Bool.bne_false, Bool.or_eq_true,
      Bool.and_eq_true, decide_eq_true_eq] at this
    rcases this with h | h | h
    · left; simp only [Char.isDigit, Bool.and_eq_true, decide_eq_true_eq]; exact h
    · exact .inr (.inl (Char.le_antisymm h.2 h.1))
    · exact .inr (.inr (Char.le_antisymm h.2 h.1))
  · right; rw [h]; rfl

/-- C90, disagreement: whether board lines are recognised depends on the order of the dictionary of the class, which Python
leaves open; there is one with which every board line is taken for a damaged one, whatever came before. -/
theorem C90_false_order : ∃ order, ValidOrder order ∧
    ∀ msgs line, (Monster.new.after order msgs).phase = .run → BoardLine line →
      ((Monster.new.after order msgs).makeCookie order line).1 = .ok t!"FIBS_BAD_Board" := by
  have hmem : t!"FIBS_BAD_Board" ∈ bodyOrder .run := List.mem_map.2 ⟨_, bad_mem, rfl⟩
  let order : Phase → List Text := fun ph =>
    match ph with
    | .run => t!"FIBS_BAD_Board" :: (bodyOrder .run).erase t!"FIBS_BAD_Board"
    | ph => bodyOrder ph
  have ho : ValidOrder order := by
    intro ph
    cases ph with
    | run => exact (List.perm_cons_erase hmem).symm
    | login => exact bodyOrder_valid _
    | motd => exact bodyOrder_valid _
  have hb : Before t!"FIBS_BAD_Board" t!"FIBS_Board" (order .run) := ⟨[], _, rfl, by simp⟩
  refine ⟨order, ho, fun msgs line hp hl => ?_⟩
  obtain ⟨hi, hc⟩ := damaged_after order ho hb msgs Monster.new new_inv (by decide)
  obtain ⟨_, hk⟩ := line_matches line hl
  obtain ⟨m', h1, _⟩ := makeCookie_spec (Monster.new.after order msgs) order line ho hi
  rw [h1]
  have := (answer_board order ho _ hi hp line hk).2.1 (before_append hc (by rw [hp]; exact hb))
  rw [answer, if_neg (fun h => like_ne_nil hk h.2), this]
  rfl

/-- **C90**, reading: when it is your turn, a board line gives the board it describes. Missing: the lines in which it is
the turn of the opponent. -/
theorem C90_delivered_partial (order : Phase → List Text) (ho : ValidOrder order)
    (hb : Before t!"FIBS_Board" t!"FIBS_BAD_Board" (order .run)) (msgs : List Text)
    (hs : ∀ s ∈ msgs, BoardLine s ∨ ¬ LikeBoard s) (hp : (Monster.new.after order msgs).phase = .run)
    (b0 : Board) (you him : Text) (nums : List Int) (k : Nat) (hy : IsName you) (hh : IsName him)
    (hl : nums.length = 50) (hcube : fibsNum nums 37 = ((2 ^ k : Nat) : Int))
    (h38 : fibsNum nums 38 = 0 ∨ fibsNum nums 38 = 1) (h39 : fibsNum nums 39 = 0 ∨ fibsNum nums 39 = 1)
    (h41 : fibsNum nums 41 = 1 ∨ fibsNum nums 41 = -1) (h42 : fibsNum nums 42 = 1 ∨ fibsNum nums 42 = -1)
    (hturn : fibsNum nums 32 = fibsNum nums 41) :
    ((Monster.new.after order msgs).makeCookie order (fibsLine you him nums)).1 = .ok t!"FIBS_Board" ∧
    ∃ b, fibsDecode b0 (fibsLine you him nums) = some ⟨b, none⟩ ∧
      b.onAction = 0 ∧ b.cube = k ∧ b.rolled = (fibsNum nums 33, fibsNum nums 34) ∧
      b.matchLength = fibsNum nums 3 ∧ b.score = (fibsNum nums 4, fibsNum nums 5) ∧
      ∀ p < 25,
        cnt b.position.1 p = fibsCount (fibsNum nums 41) (fibsNum nums (6 + fibsPlace (fibsNum nums 42) p)) ∧
        cnt b.position.2 p = fibsCount (- fibsNum nums 41) (fibsNum nums (6 + fibsPlace (- fibsNum nums 42) p)) := by
  have c1 := name_no_colon hy
  have c2 := name_no_colon hh
  refine ⟨C90_recognised_partial order ho hb msgs hs hp _ ⟨you, him, nums, hy, hh, by rintro rfl; simp at hl, rfl⟩, ?_⟩
  obtain ⟨b, hd, e1, _, _, e2, _, e3, _, _, _, e4, e5⟩ :=
    C43_your_turn_partial b0 you him nums k c1 c2 hl hcube h38 h39 hturn
  obtain ⟨r, hr, _, _, hpos⟩ := C09_position b0 you him nums c1 c2 hl h41 h42
  obtain rfl := Option.some.inj (hr.symm.trans hd)
  exact ⟨b, hd, e2, e1, e3, e4, e5, hpos⟩

theorem fibsNumbers_line (you him : Text) (nums : List Int) (h1 : ':' ∉ you) (h2 : ':' ∉ him) :
    fibsNumbers (fibsLine you him nums) = some nums := by
  unfold fibsNumbers fibsLine
  rw [splitChar_join _ (by simp)]
  · simpa using mapM_pyInt nums
  · intro f hf
    simp only [List.mem_cons, List.mem_map] at hf
    rcases hf with rfl | rfl | rfl | ⟨n, _, rfl⟩
    · decide
    · exact h1
    · exact h2
    · exact pyStr_no_colon n

/-- **C90**, lines of any length: reading ends without exception exactly if there are at least 39 numbers, so that only the
direction may be missing, and it is your turn; complete lines are read as in C09. -/
theorem C90_length (b0 : Board) (you him : Text) (nums : List Int) (h1 : ':' ∉ you) (h2 : ':' ∉ him) :
    ∃ r, fibsDecodeAny b0 (fibsLine you him nums) = some r ∧
      (r.err = none ↔ 39 ≤ nums.length ∧ fibsNum nums 32 = fibsNum nums 41) ∧
      (50 ≤ nums.length → fibsDecode b0 (fibsLine you him nums) = some r) := by
  refine ⟨fibsDecodeNums b0 nums, by rw [fibsDecodeAny, fibsNumbers_line you him nums h1 h2]; rfl, ?_, ?_⟩
  · unfold fibsDecodeNums
    simp only
    split
    · constructor
      · intro h; simp at h
      · omega
    · split
      · split
        · constructor
          · intro h; simp at h
          · omega
        · constructor
          · intro h; simp at h
          · omega
      · unfold fibsApply fibsNum
        simp only
        split
        · next h => exact ⟨fun _ => ⟨by omega, h⟩, fun _ => rfl⟩
        · next h =>
          split <;> exact ⟨fun h' => by simp at h', fun h' => absurd h'.2 h⟩
  · intro hl
    have := fibsNumbers_line you him nums h1 h2
    unfold fibsNumbers at this
    unfold fibsDecode fibsParse
    simp only [this]
    rw [if_neg (by omega)]
    unfold fibsDecodeNums
    rw [if_neg (by omega), if_neg (by omega)]
    rfl

/-- **C90**, lines that are too short to be read: without the whole of the board nothing is changed; without the colour all
chequers are given to you, as if nobody else played, before the exception. -/
theorem C90_false_rest (b0 : Board) (you him : Text) (nums : List Int) (h1 : ':' ∉ you) (h2 : ':' ∉ him)
    (hl : nums.length < 39) :
    ∃ r, fibsDecodeAny b0 (fibsLine you him nums) = some r ∧ r.err ≠ none ∧
      (nums.length < 29 → r.board = b0) ∧
      (29 ≤ nums.length → (∀ i < 25, cnt r.board.position.1 i = ((fibsNum nums (30 - i)).natAbs : Int)) ∧
        r.board.position.2 = List.replicate 25 0) := by
  refine ⟨fibsDecodeNums b0 nums, by rw [fibsDecodeAny, fibsNumbers_line you him nums h1 h2]; rfl, ?_, ?_, ?_⟩
  · unfold fibsDecodeNums
    simp only
    split
    · simp
    · split <;> exact fun h => nomatch h
  · intro h
    unfold fibsDecodeNums
    simp only
    rw [if_pos h]
  · intro h
    have hp : (fibsDecodeNums b0 nums).board.position = colourless ((nums.take (32 - 3)).drop (6 - 3)) := by
      unfold fibsDecodeNums
      simp only
      rw [if_neg (by omega), if_pos hl]
      split
      · rfl
      · unfold fibsCube; (repeat' split) <;> rfl
    rw [hp]
    have hB : ((nums.take (32 - 3)).drop (6 - 3)).length = 26 := by simp; omega
    have hg : ∀ k < 26, ((nums.take (32 - 3)).drop (6 - 3)).getD k 0 = nums.getD (k + 3) 0 := by
      intro k hk
      simp only [List.getD_eq_getElem?_getD, List.getElem?_drop, List.getElem?_take]
      rw [if_pos (by omega), Nat.add_comm]
    generalize (nums.take (32 - 3)).drop (6 - 3) = B at hB hg
    cases B with
    | nil => simp at hB
    | cons c B =>
      rw [List.length_cons] at hB
      refine ⟨fun i hi => ?_, ?_⟩
      · have := hg (24 - i) (by omega)
        unfold cnt colourless fibsNum
        rw [show 30 - i - 3 = 24 - i + 3 by omega, ← this]
        simp only [List.getD_eq_getElem?_getD, List.getElem?_cons_zero, Option.getD_some, List.take_succ_cons,
          List.drop_succ_cons, List.drop_zero, List.getElem?_map]
        rw [List.getElem?_reverse (by simp; omega)]
        simp only [List.length_cons, List.length_take]
        rw [show min 24 B.length + 1 - 1 - i = 24 - i by omega, ← List.take_succ_cons, List.getElem?_take,
          if_pos (by omega)]
        have hl : 24 - i < (c :: B).length := by simp; omega
        rw [List.getElem?_eq_getElem hl]; rfl
      · unfold colourless
        simp only [List.map_const', List.length_append, List.length_drop, List.length_take, List.length_cons,
          List.length_nil]
        congr 1
        omega

/-- The numbers of a line that ends before the direction, your only chequer on point 1. -/
def c90Short : List Int :=
  [5, 0, 0] ++ ([0, 1] ++ List.replicate 24 0) ++ [1, 3, 1, 0, 0, 1, 1, 1, 0, 1]

/-- C90, disagreement: a line may be recognised though it cannot be read, and one that ends before the direction is read as
if you were playing upwards, while with direction -1 your chequer is on the other end. -/
theorem C90_false_short :
    (BoardLine t!"board:You:fred:1:0:0:2" ∧ matching t!"board:You:fred:1:0:0:2" = [t!"FIBS_Board", t!"FIBS_BAD_Board"] ∧
      fibsDecodeAny {} t!"board:You:fred:1:0:0:2" = some ⟨{}, some .typeError⟩) ∧
    BoardLine (fibsLine t!"You" t!"fred" c90Short) ∧ c90Short.length = 39 ∧
    (∃ b, fibsDecodeAny {} (fibsLine t!"You" t!"fred" c90Short) = some ⟨b, none⟩ ∧ cnt b.position.1 23 = 1) ∧
    ∃ b, fibsDecodeAny {} (fibsLine t!"You" t!"fred" (c90Short ++ [-1])) = some ⟨b, none⟩ ∧ cnt b.position.1 0 = 1 := by
  have n1 : IsName t!"You" := ⟨by decide, by decide⟩
  have n2 : IsName t!"fred" := ⟨by decide, by decide⟩
  refine ⟨⟨⟨_, _, [1, 0, 0, 2], n1, n2, by decide, by decide +kernel⟩, by decide +kernel, by decide +kernel⟩,
    ⟨_, _, _, n1, n2, by decide, rfl⟩, by decide, ?_, ?_⟩
  · rw [fibsDecodeAny, fibsNumbers_line _ _ _ (by decide) (by decide)]
    exact ⟨_, rfl, by decide +kernel⟩
  · rw [fibsDecodeAny, fibsNumbers_line _ _ _ (by decide) (by decide)]
    exact ⟨_, rfl, by decide +kernel⟩

/-! ### Non-vacuity -/

/-- The order of the class body is one with which good lines are recognised. -/
theorem bodyOrder_before : Before t!"FIBS_Board" t!"FIBS_BAD_Board" (bodyOrder .run) := by
  have : ∃ n ≤ (runEffective.map (·.1)).length, (runEffective.map (·.1))[n]? = some t!"FIBS_Board" ∧
      t!"FIBS_BAD_Board" ∉ (runEffective.map (·.1)).take n := by decide +kernel
  obtain ⟨n, _, h1, h2⟩ := this
  have e : bodyOrder .run = runEffective.map (·.1) := by rw [bodyOrder, show tableOf .run = runEffective from runTable_eq]
  rw [e]
  refine ⟨_, (runEffective.map (·.1)).drop (n + 1), ?_, h2⟩
  obtain ⟨hn, h1⟩ := List.getElem?_eq_some_iff.1 h1
  rw [← h1, ← List.drop_eq_getElem_cons hn, List.take_append_drop]

/-- After logging in and a first board line the next one is recognised. -/
example : (Monster.new.after bodyOrder [t!"3", t!"4"]).phase = .run ∧
    ((Monster.new.after bodyOrder [t!"3", t!"4"]).makeCookie bodyOrder t!"board:You:fred:1:0:0:2").1 =
      .ok t!"FIBS_Board" := by
  have hr := (reach_run bodyOrder bodyOrder_valid).2
  refine ⟨hr, C90_recognised_partial bodyOrder bodyOrder_valid bodyOrder_before _ ?_ hr _ C90_false_short.1.1⟩
  intro s hs
  right
  rintro ⟨r, rfl⟩
  simp at hs

end Bglib
