import Verif.Lemmas.Message
import Verif.Props.Cookie
/-
C109: messages of the interface for clients are recognised by their numbers; C110: messages described in the comments of the pattern
table, and what the server says about games.
-/
namespace Bglib
open Spec

/-! ### C109 -/

/-- **C109**: the messages of the interface for clients in the login phase get the names that belong to their numbers. -/
theorem C109_login (x : List Blank × Text) (hx : x ∈ greetings) : Answered .login x.1 x.2 := by
  have h : greetings.all (fitsOnly .login) = true := by decide +kernel
  exact fitsOnly_sound _ _ (List.all_eq_true.1 h x hx)

/-- **C109** (the part that holds): in the run phase too, whatever came before, unless they look like lines of the command `stat`.
Missing: those (false, C109_false). -/
theorem C109_partial (x : List Blank × Text) (hx : x ∈ clips) (order : Phase → List Text) (ho : ValidOrder order) (m : Monster)
    (hr : Reachable order m) (hp : m.phase = .run) (s : Text) (hs : FilledIn x.1 s) (hl : ¬ LikeStatistics s) :
    (m.makeCookie order s).1 = .ok x.2 := by
  have h : (clips.all fun x => solid x.1 && coveredBy (compiledOf .run) x.1 x.2 &&
      (candidates (compiledOf .run) x.1).all fun k => k == x.2 || k == t!"FIBS_Stat") = true := by decide +kernel
  have h := List.all_eq_true.1 h x hx
  rw [Bool.and_eq_true, Bool.and_eq_true] at h
  refine answered_one order ho m hr s x.2 (solid_ne _ _ hs h.1.1) (by rw [hp]; exact coveredBy_sound _ _ s _ hs h.1.2) (fun k hk => ?_)
  rw [hp] at hk
  have := List.all_eq_true.1 h.2 k (candidates_sound _ _ s k hs hk)
  rw [Bool.or_eq_true, beq_iff_eq, beq_iff_eq] at this
  rcases this with h | rfl
  · exact h
  · exact absurd (stat_like s hk) hl

/-- **C109** is false of users with names beginning with "bytes" or "accounts": after a line of the command `stat` what such a user says
is taken as another, whatever the dictionary order. -/
theorem C109_false (order : Phase → List Text) (ho : ValidOrder order) (m : Monster) (hr : Reachable order m) (hp : m.phase = .run) :
    FilledIn [.words t!"12 ", .user, .words t!" ", .rest] t!"12 bytes hello" ∧
    ((m.makeCookie order t!"1 accounts").2.makeCookie order t!"12 bytes hello").1 = .ok t!"FIBS_Stat" :=
  ⟨.cons _ _ t!"12 " t!"bytes hello" rfl (.cons _ _ t!"bytes" t!" hello" ⟨by decide, by decide⟩ (.cons _ _ t!" " t!"hello" rfl
    (.cons _ _ t!"hello" [] (by intro c hc; revert c; decide) .nil))),
   sticky order ho m hr hp _ _ _ (by decide) (by decide) (by decide +kernel) (by decide +kernel) (by decide)⟩

/-! ### C110 -/

/-- **C110** (the part that holds): the messages of the comments, with any names and numbers filled in, are recognised as what they stand
beside, whatever came before.  Missing: the forms in `overlooked` (false, C110_false). -/
theorem C110_comments_partial (x : List Blank × Text) (hx : x ∈ described) (ho : x ∉ overlooked) : Answered .run x.1 x.2 := by
  have h : (described.take 20).all (fitsOnly .run) = true := by decide +kernel
  refine fitsOnly_sound _ _ (List.all_eq_true.1 h x ?_)
  rw [← List.take_append_drop 20 described, List.mem_append] at hx
  exact hx.resolve_right ho

/-- **C110** is false of the forms in `overlooked`: none of their messages is ever recognised. -/
theorem C110_false (x : List Blank × Text) (hx : x ∈ overlooked) : x ∈ described ∧ Answered .run x.1 t!"FIBS_Unknown" ∧ x.2 ≠ t!"FIBS_Unknown" := by
  have h : (overlooked.all fun x => solid x.1 && candidates (compiledOf .run) x.1 == [] && x.2 != t!"FIBS_Unknown") = true := by decide +kernel
  have h := List.all_eq_true.1 h x hx
  rw [Bool.and_eq_true, Bool.and_eq_true, beq_iff_eq, bne_iff_ne] at h
  exact ⟨List.mem_of_mem_drop hx, unanswered_of .run x.1 h.1.1 h.1.2, h.2⟩

/-- **C110**: what the server says about games is recognised, with any names, numbers and dice, whatever came before. -/
theorem C110_games (x : List Blank × Text) (hx : x ∈ gameTalk) : Answered .run x.1 x.2 := by
  have h : gameTalk.all (fitsOnly .run) = true := by decide +kernel
  exact fitsOnly_sound _ _ (List.all_eq_true.1 h x hx)

/-- **C110** is false of the forms in `misheard`: all their messages get another answer. -/
theorem C110_false_games (x : List Blank × Text × Text) (hx : x ∈ misheard) : Answered .run x.1 x.2.2 ∧ x.2.2 ≠ x.2.1 := by
  have h1 : ((misheard.take 2).all fun x => fitsOnly .run (x.1, x.2.2)) = true := by decide +kernel
  have h2 : ((misheard.drop 2).all fun x => solid x.1 && candidates (compiledOf .run) x.1 == [] && x.2.2 == t!"FIBS_Unknown") = true := by decide +kernel
  have h3 : ∀ x ∈ misheard, x.2.2 ≠ x.2.1 := by decide +kernel
  refine ⟨?_, h3 x hx⟩
  rw [← List.take_append_drop 2 misheard, List.mem_append] at hx
  rcases hx with hx | hx
  · exact fitsOnly_sound .run (x.1, x.2.2) (List.all_eq_true.1 h1 x hx)
  · have h := List.all_eq_true.1 h2 x hx
    rw [Bool.and_eq_true, Bool.and_eq_true, beq_iff_eq, beq_iff_eq] at h
    rw [h.2]
    exact unanswered_of .run x.1 h.1.1 h.1.2

/-! ### Instances -/

/-- C109_partial has instances. -/
example : FilledIn [.words t!"10 ", .user] t!"10 fred" ∧ ¬ LikeStatistics t!"10 fred" := by
  refine ⟨.cons _ _ t!"10 " t!"fred" rfl (.cons _ _ t!"fred" [] ⟨by decide, by decide⟩ .nil), ?_⟩
  rintro ⟨n, t, h1, h2, h3, w, hw, hp⟩
  have hn : n.length < 3 := by
    apply Classical.byContradiction
    intro h
    have : n[2]? = some ' ' := by
      have := congrArg (fun l : Text => l[2]?) h3
      rw [List.getElem?_append_left (by omega)] at this
      exact this.symm
    exact absurd (h2 ' ' (List.mem_of_getElem? this)).1 (by decide)
  match n, h1, hn, h3 with
  | [_], _, _, h3 => injection h3 with _ h; subst h; revert w; decide
  | [_, _], _, _, h3 => injection h3 with _ h; injection h with _ h; subst h; revert w; decide
/-- C109_login has instances. -/
example : FilledIn [.words t!"3"] t!"3" := .cons _ _ t!"3" [] rfl .nil
/-- C110_comments_partial has instances, and so has C110_false. -/
example : FilledIn [.user, .words t!" can't move"] t!"fred can't move" ∧ ([Blank.user, .words t!" can't move"], t!"FIBS_CantMove") ∈ described ∧
    ([Blank.user, .words t!" can't move"], t!"FIBS_CantMove") ∉ overlooked ∧
    FilledIn [.user, .words t!" logs out. The game was saved."] t!"fred logs out. The game was saved." :=
  ⟨.cons _ _ t!"fred" t!" can't move" ⟨by decide, by decide⟩ (.cons _ _ t!" can't move" [] rfl .nil), by decide +kernel, by decide +kernel,
   .cons _ _ t!"fred" t!" logs out. The game was saved." ⟨by decide, by decide⟩ (.cons _ _ t!" logs out. The game was saved." [] rfl .nil)⟩
/-- C110_games and C110_false_games have instances. -/
example : FilledIn [.words t!"You roll ", .die, .words t!" and ", .die, .words t!"."] t!"You roll 3 and 1." ∧
    FilledIn [.user, .words t!" waves goodbye."] t!"fred waves goodbye." :=
  ⟨.cons _ _ t!"You roll " t!"3 and 1." rfl (.cons _ _ t!"3" t!" and 1." ⟨'3', rfl, by decide⟩ (.cons _ _ t!" and " t!"1." rfl
    (.cons _ _ t!"1" t!"." ⟨'1', rfl, by decide⟩ (.cons _ _ t!"." [] rfl .nil)))),
   .cons _ _ t!"fred" t!" waves goodbye." ⟨by decide, by decide⟩ (.cons _ _ t!" waves goodbye." [] rfl .nil)⟩

end Bglib
