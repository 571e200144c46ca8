import Verif.Spec.Snowie
/-
C33: validating match records; C34: chopping them into games; C58: the limit on the size.
-/
namespace Bglib
open Spec Snowie

/-- The validator after the last significant line. -/
private def Rel : Option Kind → LineValidator → Prop
  | none, v => v = .new
  | some .empty, v => v.state = .empty
  | some .matchLength, v => v.state = .matchLength
  | some .gameHeader, v => v.state = .gameHeader
  | some .playerHeader, v => v.state = .playerHeader
  | some (.moves m), v => v = ⟨.moves, some m⟩
  | some .result, _ => False
  | some .bad, _ => False

private theorem parse_follow (p : Option Kind) (v : LineValidator) (hr : Rel p v) (k : Kind) (hk : k ≠ .result) :
    (MayFollow p k ∧ ∃ v', v.parse k = .ok v' ∧ Rel (some k) v') ∨
    (¬ MayFollow p k ∧ v.parse k = .error .valueError) := by
  obtain ⟨st, c⟩ := v
  rcases p with _ | p
  · cases hr
    cases k <;> simp_all [MayFollow, LineValidator.parse, LineValidator.enter, acceptables, Rel]
  · cases p with
    | result => exact absurd hr (by simp [Rel])
    | bad => exact absurd hr (by simp [Rel])
    | moves m =>
      cases hr
      cases k with
      | moves n =>
        simp only [MayFollow, LineValidator.parse, LineValidator.enter, acceptables, Rel]
        by_cases h : n = m + 1
        · subst h; simp
        · have : ¬ m + 1 = n := fun e => h e.symm
          simp [h, this]
      | _ => simp_all [MayFollow, LineValidator.parse, LineValidator.enter, acceptables, Rel]
    | _ =>
      simp only [Rel] at hr
      subst hr
      cases k with
      | moves n =>
        simp only [MayFollow, LineValidator.parse, LineValidator.enter, acceptables, Rel]
        by_cases h : n = 1
        · subst h; simp
        · have : ¬ 1 = n := fun e => h e.symm
          simp [h, this]
      | _ => simp_all [MayFollow, LineValidator.parse, LineValidator.enter, acceptables, Rel]

private theorem run_chained (ks : List Kind) : ∀ (p : Option Kind) (v : LineValidator), Rel p v →
    (Chained p (significant ks) ∧ ∃ v', v.run ks = .ok v') ∨
    (¬ Chained p (significant ks) ∧ v.run ks = .error .valueError) := by
  induction ks with
  | nil => intro p v _; exact Or.inl ⟨trivial, v, rfl⟩
  | cons k ks ih =>
    intro p v hr
    by_cases hk : k = .result
    · subst hk
      have : significant (.result :: ks) = significant ks := by simp [significant]
      rw [this]
      exact ih p v hr
    · have : significant (k :: ks) = k :: significant ks := by simp [significant, hk]
      rw [this]
      simp only [Chained, LineValidator.run]
      rcases parse_follow p v hr k hk with ⟨h1, v', h2, h3⟩ | ⟨h1, h2⟩
      · rw [h2]
        rcases ih (some k) v' h3 with ⟨h4, h5⟩ | ⟨h4, h5⟩
        · exact Or.inl ⟨⟨h1, h4⟩, h5⟩
        · exact Or.inr ⟨fun h => h4 h.2, h5⟩
      · rw [h2]
        exact Or.inr ⟨fun h => h1 h.1, rfl⟩

/-- **C33**: exactly which texts are accepted: those in which, lines with results apart, each line may
follow the one before, and moves are numbered from 1.  Everything else is a `ValueError`. -/
theorem C33_exact (ks : List Kind) :
    ((LineValidator.new.run ks).isOk = true ↔ Chained none (significant ks)) ∧
    ((LineValidator.new.run ks).isOk = false → LineValidator.new.run ks = .error .valueError) := by
  rcases run_chained ks none .new rfl with ⟨h1, v', h2⟩ | ⟨h1, h2⟩
  · rw [h2]
    exact ⟨⟨fun _ => h1, fun _ => rfl⟩, fun h => by simp [Except.isOk, Except.toBool] at h⟩
  · rw [h2]
    exact ⟨⟨fun h => by simp [Except.isOk, Except.toBool] at h, fun h => absurd h h1⟩, fun _ => rfl⟩

/-- **C33**: a text is rejected at the first wrong line, whatever follows. -/
theorem C33_first (ks rest : List Kind) (h : (LineValidator.new.run ks).isOk = false) :
    LineValidator.new.run (ks ++ rest) = .error .valueError := by
  have key : ∀ (ks : List Kind) (v : LineValidator) (e : PyErr), v.run ks = .error e →
      v.run (ks ++ rest) = .error e := by
    intro ks
    induction ks with
    | nil => intro v e h; simp [LineValidator.run] at h
    | cons k ks ih =>
      intro v e h
      simp only [LineValidator.run, List.cons_append] at h ⊢
      cases hp : v.parse k with
      | error e' => rw [hp] at h; exact h
      | ok v' => rw [hp] at h; exact ih v' e h
  exact key ks _ _ ((C33_exact ks).2 h)

private theorem chained_append (a b : List Kind) (p : Option Kind) :
    Chained p (a ++ b) ↔ Chained p a ∧ Chained (a.getLast?.or p) b := by
  induction a generalizing p with
  | nil => simp [Chained]
  | cons k a ih =>
    simp only [List.cons_append, Chained, ih, and_assoc]
    have : (a.getLast?.or (some k)) = ((k :: a).getLast?.or p) := by
      cases a with
      | nil => rfl
      | cons x a => simp [List.getLast?_cons]
    rw [this]

private theorem chained_empties (e : Nat) (p : Option Kind) : Chained p (List.replicate e .empty) := by
  induction e generalizing p with
  | zero => trivial
  | succ e ih => exact ⟨by cases p <;> simp [MayFollow], ih _⟩

private theorem chained_moves (n m : Nat) :
    Chained (some (if m = 0 then .playerHeader else .moves m)) ((List.range' (m + 1) n).map .moves) := by
  induction n generalizing m with
  | zero => trivial
  | succ n ih =>
    simp only [List.range'_succ, List.map_cons, Chained]
    refine ⟨?_, by simpa using ih (m + 1)⟩
    split
    · next h => simp [MayFollow, h]
    · simp [MayFollow]

/-- The kinds a game may come after. -/
private def Before (p : Option Kind) : Prop :=
  p = some .empty ∨ p = some .matchLength ∨ ∃ m, p = some (.moves m)

private theorem chained_game (g : List Kind) (hg : IsGame g) (p : Option Kind) (hp : Before p) :
    Chained p (significant g) ∧ Before ((significant g).getLast?.or p) := by
  obtain ⟨n, res, e, hn, rfl⟩ := hg
  have hsig : significant (gameKinds n res e) =
      [.gameHeader, .playerHeader] ++ ((List.range' 1 n).map .moves ++ List.replicate e .empty) := by
    have hm : (List.range n).map (fun i => Kind.moves (i + 1)) = (List.range' 1 n).map .moves := by
      rw [List.range_eq_range', List.range'_eq_map_range, List.range'_eq_map_range]
      simp [Nat.add_comm]
    unfold significant gameKinds
    rw [hm]
    have hf : (List.range' 1 n).filter (fun _ => true) = List.range' 1 n := List.filter_eq_self.2 (by simp)
    cases res <;> simp [List.filter_append, List.filter_map, Function.comp_def, hf]
  obtain ⟨n, rfl⟩ : ∃ k, n = k + 1 := ⟨n - 1, by omega⟩
  have hlast : ((List.range' 1 (n + 1)).map Kind.moves).getLast? = some (.moves (n + 1)) := by
    rw [List.range'_1_concat]
    simp [Nat.add_comm]
  rw [hsig]
  constructor
  · rw [chained_append, chained_append]
    refine ⟨?_, ?_, ?_⟩
    · refine ⟨?_, ?_, trivial⟩
      · rcases hp with rfl | rfl | ⟨m, rfl⟩ <;> simp [MayFollow]
      · simp [MayFollow]
    · have := chained_moves (n + 1) 0
      simpa using this
    · exact chained_empties _ _
  · cases e with
    | zero =>
      right; right
      refine ⟨n + 1, ?_⟩
      rw [List.getLast?_append, List.getLast?_append, hlast]
      simp
    | succ e =>
      left
      rw [List.getLast?_append, List.getLast?_append, List.getLast?_replicate]
      simp

private theorem chained_games (gs : List (List Kind)) (hg : ∀ g ∈ gs, IsGame g) (p : Option Kind)
    (hp : Before p) : Chained p (significant gs.flatten) := by
  induction gs generalizing p with
  | nil => trivial
  | cons g gs ih =>
    have hs : significant (g :: gs).flatten = significant g ++ significant gs.flatten := by
      simp [significant]
    rw [hs, chained_append]
    obtain ⟨h1, h2⟩ := chained_game g (hg g (by simp)) p hp
    exact ⟨h1, ih (fun g h => hg g (by simp [h])) _ h2⟩

/-- **C33** (the part that holds): every text in the format is accepted. -/
theorem C33_accepts_partial (ks : List Kind) (h : WellFormed ks) : (LineValidator.new.run ks).isOk = true := by
  obtain ⟨e, gs, _, hg, rfl⟩ := h
  rw [(C33_exact _).1]
  have hs : significant (.matchLength :: List.replicate e .empty ++ gs.flatten) =
      .matchLength :: (List.replicate e .empty ++ significant gs.flatten) := by
    simp [significant]
  rw [hs]
  refine ⟨by simp [MayFollow], ?_⟩
  rw [chained_append]
  refine ⟨chained_empties _ _, chained_games gs hg _ ?_⟩
  cases e with
  | zero => right; left; simp
  | succ e => left; simp [List.getLast?_replicate]

private theorem wellFormed_head (ks : List Kind) (h : WellFormed ks) : ks.head? = some .matchLength := by
  obtain ⟨e, gs, _, _, rfl⟩ := h
  rfl

/-- **C33** is false: also accepted are texts that do not begin with the length of the match but with an
empty line, the length alone, results before anything else, and a game without moves. -/
theorem C33_false :
    (∃ ks, (LineValidator.new.run ks).isOk = true ∧ ¬ WellFormed ks) ∧
    (LineValidator.new.run [.empty, .gameHeader, .playerHeader, .moves 1]).isOk = true ∧
    (LineValidator.new.run [.matchLength]).isOk = true ∧
    (LineValidator.new.run [.result, .matchLength, .result, .gameHeader]).isOk = true ∧
    (LineValidator.new.run [.matchLength, .gameHeader, .playerHeader, .empty, .gameHeader]).isOk = true := by
  refine ⟨⟨[.empty], by decide, fun h => ?_⟩, by decide, by decide, by decide, by decide⟩
  have := wellFormed_head _ h
  simp at this

/-- C33_accepts_partial has instances; C33_first has, too. -/
example : WellFormed [.matchLength, .empty, .gameHeader, .playerHeader, .moves 1, .moves 2, .result, .empty,
    .gameHeader, .playerHeader, .moves 1] :=
  ⟨1, [gameKinds 2 true 1, gameKinds 1 false 0], by simp, by
    intro g hg
    simp only [List.mem_cons, List.not_mem_nil, or_false] at hg
    rcases hg with rfl | rfl
    · exact ⟨2, true, 1, by omega, rfl⟩
    · exact ⟨1, false, 0, by omega, rfl⟩, by decide⟩
example : (LineValidator.new.run [.matchLength, .gameHeader, .playerHeader, .moves 2]).isOk = false := by decide

/-! ### C34: chop -/

private theorem chop_moves (ls : List Line) : ∀ (n m : Nat) (v : LineValidator),
    ls.map (·.kind) = (List.range' (m + 1) n).map .moves →
    Rel (some (if m = 0 then .playerHeader else .moves m)) v →
    ∃ v', Rel (some (if m + n = 0 then .playerHeader else .moves (m + n))) v' ∧
      ∀ (ml : Option Text) (xs : List Text) (f : Bool) (rest : List Line), chopLoop v ml xs f (ls ++ rest) = chopLoop v' ml (xs ++ ls.map (·.text)) f rest := by
  induction ls with
  | nil =>
    intro n m v hk hr
    have : n = 0 := by simpa using hk.symm
    subst this
    exact ⟨v, hr, fun _ _ _ _ => by simp⟩
  | cons l ls ih =>
    intro n m v hk hr
    obtain ⟨n, rfl⟩ : ∃ k, n = k + 1 := by
      cases n with
      | zero => simp at hk
      | succ n => exact ⟨n, rfl⟩
    simp only [List.map_cons, List.range'_succ, List.cons.injEq] at hk
    obtain ⟨hk1, hk2⟩ := hk
    rcases parse_follow _ v hr (.moves (m + 1)) (by simp) with ⟨_, v', h2, h3⟩ | ⟨h1, _⟩
    · obtain ⟨v'', h4, h5⟩ := ih n (m + 1) v' hk2 (by simpa using h3)
      refine ⟨v'', by rw [show m + (n + 1) = m + 1 + n by omega]; exact h4, fun ml xs f rest => ?_⟩
      cases h3
      rw [List.cons_append, chopLoop, hk1, h2]
      simp only [reduceCtorEq, if_false]
      rw [h5]
      simp
    · exfalso
      apply h1
      by_cases h : m = 0 <;> simp [h, MayFollow]

private theorem chop_empties (ls : List Line) (hk : ∀ l ∈ ls, l.kind = .empty) (v : LineValidator)
    (p : Option Kind) (hr : Rel p v) (hp : Before p) :
    ∃ v' p', Rel p' v' ∧ Before p' ∧
      ∀ (ml : Option Text) (xs : List Text) (f : Bool) (rest : List Line), chopLoop v ml xs f (ls ++ rest) = chopLoop v' ml xs f rest := by
  induction ls generalizing v p with
  | nil => exact ⟨v, p, hr, hp, fun _ _ _ _ => rfl⟩
  | cons l ls ih =>
    rcases parse_follow p v hr .empty (by simp) with ⟨_, v', h2, h3⟩ | ⟨h1, _⟩
    · obtain ⟨v'', p', h4, h5, h6⟩ := ih (fun l hl => hk l (by simp [hl])) v' (some .empty) h3 (Or.inl rfl)
      refine ⟨v'', p', h4, h5, fun ml xs f rest => ?_⟩
      rw [List.cons_append, chopLoop, hk l (by simp), h2]
      have : v'.state = .empty := h3
      simp only [this, reduceCtorEq, if_false, if_true]
      exact h6 ml xs f rest
    · exact absurd (by cases p <;> simp [MayFollow]) h1

private theorem chop_game (g : List Line) (hg : IsGame (g.map (·.kind))) (v : LineValidator) (p : Option Kind)
    (hr : Rel p v) (hp : Before p) (ml : Option Text) (xs : List Text) (f : Bool) (rest : List Line) :
    ∃ v' p', Rel p' v' ∧ Before p' ∧ chopLoop v ml xs f (g ++ rest) =
      if f then chopLoop v' ml (xs ++ written g) false rest
      else .cons (chopJoin ml xs) (chopLoop v' ml (written g) false rest) := by
  obtain ⟨n, res, e, hn, hg⟩ := hg
  unfold gameKinds at hg
  obtain ⟨g1, g4, rfl, hg1, hg4⟩ := List.map_eq_append_iff.1 hg
  obtain ⟨g1, g3, rfl, hg1, hg3⟩ := List.map_eq_append_iff.1 hg1
  obtain ⟨g1, g2, rfl, hg1, hg2⟩ := List.map_eq_append_iff.1 hg1
  have hm : (List.range n).map (fun i => Kind.moves (i + 1)) = (List.range' 1 n).map .moves := by
    rw [List.range_eq_range', List.range'_eq_map_range, List.range'_eq_map_range]
    simp [Nat.add_comm]
  rw [hm] at hg2
  obtain ⟨a, b, rfl⟩ : ∃ a b, g1 = [a, b] := by
    have := congrArg List.length hg1
    simp only [List.length_map, List.length_cons, List.length_nil] at this
    match g1, this with
    | [a, b], _ => exact ⟨a, b, rfl⟩
  simp only [List.map_cons, List.map_nil, List.cons.injEq, and_true] at hg1
  obtain ⟨ha, hb⟩ := hg1
  have he : ∀ l ∈ g4, l.kind = .empty := by
    intro l hl
    have : l.kind ∈ g4.map (·.kind) := List.mem_map.2 ⟨l, hl, rfl⟩
    rw [hg4] at this
    exact (List.mem_replicate.1 this).2
  have hw : written ([a, b] ++ g2 ++ g3 ++ g4) = a.text :: b.text :: (g2.map (·.text) ++ g3.map (·.text)) := by
    have h4 : g4.filter (fun l => decide (l.kind ≠ .empty)) = [] :=
      List.filter_eq_nil_iff.2 fun l hl => by simp [he l hl]
    have h2 : g2.filter (fun l => decide (l.kind ≠ .empty)) = g2 := by
      refine List.filter_eq_self.2 fun l hl => ?_
      have : l.kind ∈ g2.map (·.kind) := List.mem_map.2 ⟨l, hl, rfl⟩
      rw [hg2] at this
      obtain ⟨i, _, hi⟩ := List.mem_map.1 this
      simp [← hi]
    have h3 : g3.filter (fun l => decide (l.kind ≠ .empty)) = g3 := by
      refine List.filter_eq_self.2 fun l hl => ?_
      have : l.kind ∈ g3.map (·.kind) := List.mem_map.2 ⟨l, hl, rfl⟩
      rw [hg3] at this
      cases res <;> simp_all
    unfold written
    rw [List.filter_append, List.filter_append, List.filter_append, h2, h3, h4]
    simp [ha, hb]
  -- the two headers
  obtain ⟨va, hva, hra⟩ : ∃ va, v.parse .gameHeader = .ok va ∧ Rel (some .gameHeader) va := by
    rcases parse_follow p v hr .gameHeader (by simp) with ⟨_, v', h2, h3⟩ | ⟨h1, _⟩
    · exact ⟨v', h2, h3⟩
    · exact absurd (by rcases hp with rfl | rfl | ⟨m, rfl⟩ <;> simp [MayFollow]) h1
  obtain ⟨vb, hvb, hrb⟩ : ∃ vb, va.parse .playerHeader = .ok vb ∧ Rel (some .playerHeader) vb := by
    rcases parse_follow _ va hra .playerHeader (by simp) with ⟨_, v', h2, h3⟩ | ⟨h1, _⟩
    · exact ⟨v', h2, h3⟩
    · exact absurd (by simp [MayFollow]) h1
  have hsa : va.state = .gameHeader := hra
  have hsb : vb.state = .playerHeader := hrb
  -- the rest of the game with whatever has been collected
  have body : ∃ v' p', Rel p' v' ∧ Before p' ∧ ∀ ys, chopLoop vb ml ys false (g2 ++ (g3 ++ (g4 ++ rest))) =
      chopLoop v' ml (ys ++ g2.map (·.text) ++ g3.map (·.text)) false rest := by
    obtain ⟨vm, hrm, hmov⟩ := chop_moves g2 n 0 vb (by simpa using hg2) (by simpa using hrb)
    have hmv : vm = ⟨.moves, some n⟩ := by
      have : 0 + n ≠ 0 := by omega
      rw [if_neg this] at hrm
      simpa [Rel] using hrm
    subst hmv
    have hb3 : Before (some (.moves n)) := Or.inr (Or.inr ⟨n, rfl⟩)
    obtain ⟨v', p', h1, h2, hemp⟩ := chop_empties g4 he ⟨.moves, some n⟩ (some (.moves n)) rfl hb3
    refine ⟨v', p', h1, h2, fun ys => ?_⟩
    rw [hmov]
    cases res with
    | false =>
      have : g3 = [] := by simpa using hg3
      subst this
      rw [List.nil_append, hemp]
      simp
    | true =>
      obtain ⟨r, rfl, hrk⟩ : ∃ r, g3 = [r] ∧ r.kind = .result := by
        have hl := congrArg List.length hg3
        simp only [List.length_map, if_true, List.length_cons, List.length_nil] at hl
        match g3, hl, hg3 with
        | [r], _, hg3 => exact ⟨r, rfl, by simpa using hg3⟩
      rw [List.cons_append, chopLoop, hrk]
      simp only [LineValidator.parse, reduceCtorEq, if_false]
      rw [List.nil_append, hemp]
      simp
  obtain ⟨v', p', h1, h2, hbody⟩ := body
  refine ⟨v', p', h1, h2, ?_⟩
  have hsplit : [a, b] ++ g2 ++ g3 ++ g4 ++ rest = a :: b :: (g2 ++ (g3 ++ (g4 ++ rest))) := by simp
  rw [hsplit, hw, chopLoop, ha, hva]
  simp only [hsa, reduceCtorEq, if_false, if_true]
  cases f with
  | true =>
    simp only [if_true]
    rw [chopLoop, hb, hvb]
    simp only [hsb, reduceCtorEq, if_false]
    rw [hbody]
    simp
  | false =>
    simp only [Bool.false_eq_true, if_false]
    rw [chopLoop, hb, hvb]
    simp only [hsb, reduceCtorEq, if_false]
    rw [hbody]
    simp

private theorem chop_games (gs : List (List Line)) (hg : ∀ g ∈ gs, IsGame (g.map (·.kind))) (m : Text) :
    ∀ (v : LineValidator) (p : Option Kind), Rel p v → Before p → ∀ xs,
      chopLoop v (some m) xs false gs.flatten =
        ⟨(xs :: gs.map written).map fun x => m ++ '\n' :: x.flatten, none⟩ := by
  induction gs with
  | nil => intro v p _ _ xs; simp [chopLoop, chopJoin, Yields.cons]
  | cons g gs ih =>
    intro v p hr hp xs
    obtain ⟨v', p', h1, h2, h3⟩ := chop_game g (hg g (by simp)) v p hr hp (some m) xs false gs.flatten
    rw [List.flatten_cons, h3]
    simp only [Bool.false_eq_true, if_false]
    rw [ih (fun g h => hg g (by simp [h])) v' p' h1 h2]
    simp [chopJoin, Yields.cons]

/-- **C34** (the part that holds): a text in the format is chopped into its games, each with the line of
the match length, an empty line, and all lines of the game that are not empty. -/
theorem C34_partial (ml : Line) (hml : ml.kind = .matchLength) (empties : List Line)
    (he : ∀ l ∈ empties, l.kind = .empty) (gs : List (List Line)) (hne : gs ≠ [])
    (hg : ∀ g ∈ gs, IsGame (g.map (·.kind))) :
    chop (ml :: (empties ++ gs.flatten)) =
      ⟨gs.map fun g => ml.text ++ '\n' :: (written g).flatten, none⟩ := by
  obtain ⟨g, gs, rfl⟩ : ∃ g gs', gs = g :: gs' := by
    cases gs with
    | nil => exact absurd rfl hne
    | cons g gs => exact ⟨g, gs, rfl⟩
  unfold chop
  rw [chopLoop, hml]
  have h0 : LineValidator.new.parse .matchLength = .ok ⟨.matchLength, some 1⟩ := by decide
  rw [h0]
  simp only [if_true]
  obtain ⟨v', p', h1, h2, h3⟩ := chop_empties empties he ⟨.matchLength, some 1⟩ (some .matchLength) rfl
    (Or.inr (Or.inl rfl))
  rw [h3]
  obtain ⟨v'', p'', h4, h5, h6⟩ := chop_game g (hg g (by simp)) v' p' h1 h2 (some ml.text) [] true gs.flatten
  rw [List.flatten_cons, h6]
  simp only [if_true, List.nil_append]
  rw [chop_games gs (fun g h => hg g (by simp [h])) ml.text v'' p'' h4 h5]
  simp

/-- **C34**: nothing is lost: without the lines of the match length added to each, the pieces are the text
without its first line and its empty lines. -/
theorem C34_lossless (gs : List (List Line)) :
    (gs.map fun g => (written g).flatten).flatten =
      ((gs.flatten.filter fun l => l.kind ≠ .empty).map (·.text)).flatten := by
  induction gs with
  | nil => rfl
  | cons g gs ih =>
    simp only [List.map_cons, List.flatten_cons, List.filter_append, List.map_append, List.flatten_append, ih]
    rfl

/-- **C34** is false for other texts the validator accepts: a text without the match length is a
`TypeError`; the match length alone counts as a game; a result after an empty line is lost. -/
theorem C34_false :
    chop [⟨.empty, ['\n']⟩, ⟨.gameHeader, ['g']⟩, ⟨.playerHeader, ['p']⟩, ⟨.moves 1, ['1']⟩] =
      ⟨[], some .typeError⟩ ∧
    chop [⟨.matchLength, ['m', '\n']⟩] = ⟨[['m', '\n', '\n']], none⟩ ∧
    chop [⟨.matchLength, ['m']⟩, ⟨.gameHeader, ['g']⟩, ⟨.playerHeader, ['p']⟩, ⟨.moves 1, ['1']⟩,
      ⟨.empty, ['\n']⟩, ⟨.result, ['w']⟩] = ⟨[['m', '\n', 'g', 'p', '1']], none⟩ := by
  decide

/-- C34_partial has instances: two games. -/
example : chop [⟨.matchLength, ['m', '\n']⟩, ⟨.empty, ['\n']⟩, ⟨.gameHeader, ['g']⟩, ⟨.playerHeader, ['p']⟩,
    ⟨.moves 1, ['1']⟩, ⟨.moves 2, ['2']⟩, ⟨.result, ['w']⟩, ⟨.empty, ['\n']⟩, ⟨.gameHeader, ['G']⟩,
    ⟨.playerHeader, ['P']⟩, ⟨.moves 1, ['1']⟩] =
    ⟨[['m', '\n', '\n', 'g', 'p', '1', '2', 'w'], ['m', '\n', '\n', 'G', 'P', '1']], none⟩ := by decide
example : IsGame [.gameHeader, .playerHeader, .moves 1, .moves 2, .result, .empty] :=
  ⟨2, true, 1, by omega, by decide⟩

/-! ### C34 for every text -/

private theorem noLength (ls : List Line) : ∀ (k : Kind), k ≠ .matchLength →
    Chained (some k) (significant (ls.map (·.kind))) →
    (takenFor (some k) ls).filter (fun r => r.1 = some .matchLength) = [] := by
  induction ls with
  | nil => intro k _ _; rfl
  | cons l ls ih =>
    intro k hk hc
    by_cases hl : l.kind = .result
    · have : significant ((l :: ls).map (·.kind)) = significant (ls.map (·.kind)) := by simp [significant, hl]
      rw [this] at hc
      simp only [takenFor, hl, if_true]
      rw [List.filter_cons_of_neg (by simpa using hk)]
      exact ih k hk hc
    · have : significant ((l :: ls).map (·.kind)) = l.kind :: significant (ls.map (·.kind)) := by
        simp [significant, hl]
      rw [this] at hc
      have hm : l.kind ≠ .matchLength := by
        intro h
        have := hc.1
        rw [h] at this
        cases k <;> simp [MayFollow] at this
      simp only [takenFor, hl, if_false]
      rw [List.filter_cons_of_neg (by simpa using hm)]
      exact ih _ hm hc.2

/-- What `chop` gives when the games are `gs`. -/
private def given (m : Option Text) (gs : List (List Text)) : Yields :=
  match m with
  | some m => ⟨gs.map fun g => m ++ '\n' :: g.flatten, none⟩
  | none => ⟨[], some .typeError⟩

private def stuck (f : Bool) (xs : List Text) (c : List Text × List (List Text)) : List (List Text) :=
  match f, c with
  | true, (a, b :: r) => (xs ++ a ++ b) :: r
  | _, (a, r) => (xs ++ a) :: r

private theorem rel_state (k : Kind) (v : LineValidator) (h : Rel (some k) v) :
    (v.state = .matchLength ↔ k = .matchLength) ∧ (v.state = .empty ↔ k = .empty) ∧
    (v.state = .gameHeader ↔ k = .gameHeader) := by
  cases k <;> simp_all [Rel]

private theorem rel_state_none (v : LineValidator) (h : Rel none v) :
    v.state = .start := by
  cases h; rfl

private theorem chop_taken (ls : List Line) : ∀ (p : Option Kind) (v : LineValidator) (ml : Option Text)
    (xs : List Text) (f : Bool), Rel p v → Chained p (significant (ls.map (·.kind))) →
    chopLoop v ml xs f ls =
      given ((lengthLine (takenFor p ls)).or ml) (stuck f xs (cutAtHeaders (takenFor p ls))) := by
  induction ls with
  | nil =>
    intro p v ml xs f _ _
    cases ml <;> cases f <;> simp [chopLoop, chopJoin, Yields.cons, takenFor, lengthLine, given, stuck, cutAtHeaders]
  | cons l ls ih =>
    intro p v ml xs f hr hc
    -- the line is taken for `q`, and the validator is right about it
    obtain ⟨q, v', hq, hp, hr', hc'⟩ : ∃ q v', q = (if l.kind = .result then p else some l.kind) ∧
        v.parse l.kind = .ok v' ∧ Rel q v' ∧ Chained q (significant (ls.map (·.kind))) := by
      by_cases hl : l.kind = .result
      · refine ⟨p, v, by simp [hl], by rw [hl]; rfl, hr, ?_⟩
        simpa [significant, hl] using hc
      · have : significant ((l :: ls).map (·.kind)) = l.kind :: significant (ls.map (·.kind)) := by
          simp [significant, hl]
        rw [this] at hc
        rcases parse_follow p v hr l.kind hl with ⟨_, v', h2, h3⟩ | ⟨h1, _⟩
        · exact ⟨some l.kind, v', by simp [hl], h2, h3, hc.2⟩
        · exact absurd hc.1 h1
    rw [chopLoop, hp]
    simp only [takenFor, ← hq]
    have hlen : lengthLine ((q, l.text) :: takenFor q ls) =
        if q = some .matchLength then (lengthLine (takenFor q ls)).or (some l.text)
        else lengthLine (takenFor q ls) := by
      unfold lengthLine
      split
      · next h =>
        rw [List.filter_cons_of_pos (by simpa using h), List.map_cons, List.getLast?_cons]
        cases (List.map (·.2) ((takenFor q ls).filter fun r => r.1 = some .matchLength)).getLast? <;> rfl
      · next h => rw [List.filter_cons_of_neg (by simpa using h)]
    rw [hlen]
    have hs : (v'.state = .matchLength ↔ q = some .matchLength) ∧ (v'.state = .empty ↔ q = some .empty) ∧
        (v'.state = .gameHeader ↔ q = some .gameHeader) := by
      cases q with
      | none => simp [rel_state_none v' hr']
      | some k => simpa using rel_state k v' hr'
    simp only [hs.1, hs.2.1, hs.2.2, cutAtHeaders]
    by_cases h1 : q = some .matchLength
    · simp only [h1, if_true, true_or]
      rw [ih (some .matchLength) v' (some l.text) xs f (h1 ▸ hr') (h1 ▸ hc')]
      cases lengthLine (takenFor (some .matchLength) ls) <;> simp
    · by_cases h2 : q = some .empty
      · simp only [h2, if_true, or_true, reduceCtorEq, if_false, Option.some.injEq]
        exact ih _ v' ml xs f (h2 ▸ hr') (h2 ▸ hc')
      · by_cases h3 : q = some .gameHeader
        · simp only [h3, if_true, reduceCtorEq, if_false, Option.some.injEq, or_self]
          cases f with
          | true =>
            simp only [if_true]
            rw [ih _ v' ml _ false (h3 ▸ hr') (h3 ▸ hc')]
            simp [stuck]
          | false =>
            simp only [Bool.false_eq_true, if_false]
            rw [ih _ v' ml _ false (h3 ▸ hr') (h3 ▸ hc')]
            have hn : lengthLine (takenFor (some .gameHeader) ls) = none := by
              unfold lengthLine
              rw [noLength ls .gameHeader (by simp) (h3 ▸ hc')]
              rfl
            rw [hn]
            cases ml <;> simp [stuck, given, chopJoin, Yields.cons]
        · simp only [h1, h2, h3, if_false, or_self]
          rw [ih q v' ml _ f hr' hc']
          congr 1
          generalize cutAtHeaders (takenFor q ls) = c
          obtain ⟨a, b⟩ := c
          cases f <;> cases b <;> simp [stuck]

/-- **C34** for every text that is accepted: exactly what comes out.  The games are the lines cut at what is
taken for a header, each with the last line taken for the match length; without one there is a `TypeError`
and nothing comes out. -/
theorem C34_exact (ls : List Line) (h : (LineValidator.new.run (ls.map (·.kind))).isOk = true) :
    chop ls = match lengthLine (takenFor none ls) with
      | some m => ⟨(choppedGames (takenFor none ls)).map fun g => m ++ '\n' :: g.flatten, none⟩
      | none => ⟨[], some .typeError⟩ := by
  have := chop_taken ls none .new none [] true rfl ((C33_exact _).1.1 h)
  unfold chop
  rw [this]
  have hg : stuck true [] (cutAtHeaders (takenFor none ls)) = choppedGames (takenFor none ls) := by
    unfold choppedGames
    cases cutAtHeaders (takenFor none ls) with
    | mk a b => cases b <;> simp [stuck]
  rw [hg, Option.or_none]
  cases lengthLine (takenFor none ls) <;> rfl

private theorem chop_raises (ls : List Line) : ∀ (v : LineValidator) (ml : Option Text) (xs : List Text)
    (f : Bool) (e : PyErr), v.run (ls.map (·.kind)) = .error e →
    (chopLoop v ml xs f ls).raised = some e ∨ (chopLoop v ml xs f ls).raised = some .typeError := by
  induction ls with
  | nil => intro v ml xs f e h; simp [LineValidator.run] at h
  | cons l ls ih =>
    intro v ml xs f e h
    simp only [List.map_cons, LineValidator.run] at h
    rw [chopLoop]
    cases hp : v.parse l.kind with
    | error e' => rw [hp] at h; cases h; exact Or.inl rfl
    | ok v' =>
      rw [hp] at h
      simp only
      repeat' split
      all_goals first
        | exact ih _ _ _ _ _ h
        | (cases hj : chopJoin ml xs with
           | ok t => simpa [Yields.cons] using ih v' ml [l.text] f e h
           | error e' =>
             right
             cases ml <;> simp [chopJoin] at hj
             simp [Yields.cons, ← hj])

/-- **C34**: chopping ends without an exception exactly for the accepted texts with a line taken for the
match length: a text that is refused is never chopped to the end. -/
theorem C34_raised (ls : List Line) :
    (chop ls).raised = none ↔
      (LineValidator.new.run (ls.map (·.kind))).isOk = true ∧ (lengthLine (takenFor none ls)).isSome = true := by
  cases h : (LineValidator.new.run (ls.map (·.kind))).isOk with
  | true =>
    rw [C34_exact ls h]
    cases lengthLine (takenFor none ls) <;> simp
  | false =>
    rcases chop_raises ls .new none [] true _ ((C33_exact _).2 h) with h' | h' <;>
      simp [chop, h']

/-- **C34** is false in further ways: a line with a result right after the match length replaces it, and
one right after the header of a game begins a game of its own. -/
theorem C34_false_results :
    chop [⟨.matchLength, ['m', '\n']⟩, ⟨.result, ['w', '\n']⟩, ⟨.gameHeader, ['g']⟩, ⟨.playerHeader, ['p']⟩] =
      ⟨[['w', '\n', '\n', 'g', 'p']], none⟩ ∧
    chop [⟨.matchLength, ['m']⟩, ⟨.gameHeader, ['g']⟩, ⟨.result, ['w']⟩, ⟨.playerHeader, ['p']⟩, ⟨.moves 1, ['1']⟩] =
      ⟨[['m', '\n', 'g'], ['m', '\n', 'w', 'p', '1']], none⟩ := by
  decide

/-- C34_exact has instances with and without a line taken for the match length; a refused text. -/
example : (LineValidator.new.run [.result, .matchLength, .gameHeader, .playerHeader, .moves 1]).isOk = true ∧
    lengthLine (takenFor none [⟨.result, ['w']⟩, ⟨.matchLength, ['m']⟩, ⟨.gameHeader, ['g']⟩]) = some ['m'] ∧
    choppedGames (takenFor none [⟨.result, ['w']⟩, ⟨.matchLength, ['m']⟩, ⟨.gameHeader, ['g']⟩]) = [[['w'], ['g']]] ∧
    lengthLine (takenFor none [⟨.empty, ['\n']⟩, ⟨.gameHeader, ['g']⟩]) = none := by decide
example : chop [⟨.matchLength, ['m']⟩, ⟨.gameHeader, ['g']⟩, ⟨.empty, ['\n']⟩, ⟨.gameHeader, ['G']⟩, ⟨.moves 1, ['1']⟩] =
    ⟨[['m', '\n', 'g']], some .valueError⟩ := by decide

/-! ### C58: the limit on the size -/

private theorem validate_loop (max : Nat) (ls : List Line) : ∀ (v : LineValidator) (size : Nat),
    size < max ∨ max = 0 →
    validateLoop max v size ls =
      match v.run (ls.map (·.kind)) with
      | .ok _ => if max = 0 ∨ size + (ls.map (·.text.length)).sum < max then .ok () else .error .valueError
      | .error _ => validateLoop max v size ls := by
  induction ls with
  | nil =>
    intro v size hs
    simp only [List.map_nil, LineValidator.run, validateLoop, List.sum_nil, Nat.add_zero]
    rw [if_pos (by rcases hs with h | h; exact Or.inr h; exact Or.inl h)]
  | cons l ls ih =>
    intro v size hs
    simp only [List.map_cons, LineValidator.run, validateLoop, List.sum_cons]
    cases hp : v.parse l.kind with
    | error e => rfl
    | ok v' =>
      dsimp only
      by_cases hc : max ≠ 0 ∧ size + l.text.length ≥ max
      · rw [if_pos hc]
        cases v'.run (ls.map (·.kind)) with
        | error e => rfl
        | ok _ =>
          dsimp only
          rw [if_neg]
          rintro (h | h)
          · exact hc.1 h
          · have := hc.2
            omega
      · rw [if_neg hc, ih v' _ (by omega)]
        cases hr : v'.run (ls.map (·.kind)) with
        | error e => dsimp only
        | ok _ => simp only [Nat.add_assoc]

/-- **C58** (the part that holds): a text the validator accepts is refused for its size exactly if there is
a limit and the text is not shorter. -/
theorem C58_partial (max : Nat) (ls : List Line) (h : (LineValidator.new.run (ls.map (·.kind))).isOk = true) :
    validate max ls = .ok () ↔ max = 0 ∨ (ls.map (·.text.length)).sum < max := by
  unfold validate
  by_cases hm : max = 0 ∨ 0 < max
  · rw [validate_loop max ls .new 0 (by omega)]
    cases hr : LineValidator.new.run (ls.map (·.kind)) with
    | error e => rw [hr] at h; simp [Except.isOk, Except.toBool] at h
    | ok v =>
      simp only [Nat.zero_add]
      split
      · next h => simp [h]
      · next h => simp [h]
  · omega

/-- **C33** for whole files: what `validate` accepts is accepted line by line, with any limit. -/
theorem C33_validate (max : Nat) (ls : List Line) (h : validate max ls = .ok ()) :
    (LineValidator.new.run (ls.map (·.kind))).isOk = true := by
  have key : ∀ (ls : List Line) (v : LineValidator) (size : Nat), validateLoop max v size ls = .ok () →
      ∃ v', v.run (ls.map (·.kind)) = .ok v' := by
    intro ls
    induction ls with
    | nil => intro v size _; exact ⟨v, rfl⟩
    | cons l ls ih =>
      intro v size h
      simp only [validateLoop, List.map_cons, LineValidator.run] at h ⊢
      cases hp : v.parse l.kind with
      | error e => rw [hp] at h; simp at h
      | ok v' =>
        rw [hp] at h
        dsimp only at h ⊢
        split at h
        · simp at h
        · exact ih v' _ h
  obtain ⟨v', h⟩ := key ls _ _ h
  rw [h]
  rfl

/-- **C58** is false: a text as long as the limit is not longer than the limit, and refused. -/
theorem C58_false : ∃ max ls, (ls.map fun l : Line => l.text.length).sum ≤ max ∧
    (LineValidator.new.run (ls.map (·.kind))).isOk = true ∧ validate max ls = .error .valueError :=
  ⟨1, [⟨.empty, ['\n']⟩], by decide, by decide, by decide⟩

/-- C58_partial has instances. -/
example : (LineValidator.new.run ([⟨.matchLength, ['m', '\n']⟩].map fun l : Line => l.kind)).isOk = true := by
  decide

end Bglib
