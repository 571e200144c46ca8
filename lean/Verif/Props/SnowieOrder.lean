import Verif.Lemmas.SnowieOrder
import Verif.Model.Regex
/-
C107 (the digest of a record is that of its text, and its lines are accepted only in their order).
-/
namespace Bglib
open Spec Snowie

/-- **C107**: a new validator accepts a text exactly as C33 and C58 say, with the same exceptions, and then has the
digest of exactly this text. -/
theorem C107_digest (max : Nat) (ls : List Line) :
    (validate max ls = .ok () → ∃ v, (Validator.new (some max)).validate ls = .ok v ∧ v.h = allText ls) ∧
    (∀ e, validate max ls = .error e → (Validator.new (some max)).validate ls = .error e) := by
  have := validate_loop_digest ls (Validator.new (some max))
  have hm : (Validator.new (some max)).max = max := rfl
  rcases this with ⟨h1, l, h2⟩ | ⟨e, h1, h2⟩
  · refine ⟨fun _ => ⟨_, h2, by simp [Validator.new]⟩, fun e he => ?_⟩
    have : validate max ls = .ok () := h1
    rw [this] at he; cases he
  · have : validate max ls = .error e := h1
    refine ⟨fun h => ?_, fun e' h => ?_⟩
    · rw [this] at h; cases h
    · rw [this] at h; cases h; exact h2

/-- **C107**: without a limit, feeding the lines one by one and validating them is the same. -/
theorem C107_feed (ls : List Line) (v : Validator) (h : v.max = 0) :
    v.validate ls = ls.foldlM (fun v l => v.feed l) v := by
  induction ls generalizing v with
  | nil => rfl
  | cons a ls ih =>
    simp only [Validator.validate, List.foldlM_cons, bind, Except.bind]
    cases hf : v.feed a with
    | error e => rfl
    | ok v' =>
      have hm : v'.max = 0 := by
        unfold Validator.feed at hf
        split at hf
        · cases hf
        · rw [← Except.ok.inj hf]; exact h
      simp only [hm, ne_eq, not_true_eq_false, false_and, if_false]
      exact ih v' hm

/-- **C107**: a validator is for one record: when it has seen one, it refuses every text that begins with the length of a
match. -/
theorem C107_once (v v' : Validator) (ls : List Line) (h : v.validate ls = .ok v') (hne : ∃ l ∈ ls, l.kind ≠ .result)
    (ml : Line) (hml : ml.kind = .matchLength) (rest : List Line) : v'.validate (ml :: rest) = .error .valueError := by
  have hs := validate_started ls v v' h (.inr hne)
  simp only [Validator.validate, Validator.feed, hml, LineValidator.parse, LineValidator.enter]
  rw [if_pos]
  refine ⟨by decide, ?_⟩
  revert hs
  cases v'.linev.state <;> decide

/-- The lines of a record are accepted in no other order. -/
def C107_order_statement : Prop := ∀ ls ls' : List Line, WellFormed (ls.map (·.kind)) → ls.Perm ls' →
  (LineValidator.new.run (ls'.map (·.kind))).isOk = true → recordContent ls' = recordContent ls

/-- **C107** (the part that holds): when the lines of a record of one game are shuffled and the result is accepted, the
lines that are not empty and not only the result are in the order of the record. -/
theorem C107_order_partial (ls ls' : List Line) (hw : (LineValidator.new.run (ls.map (·.kind))).isOk = true)
    (h1 : (ls.map (·.kind)).count .gameHeader = 1) (h2 : .matchLength ∈ ls.map (·.kind)) (hp : ls.Perm ls')
    (ha : (LineValidator.new.run (ls'.map (·.kind))).isOk = true) : recordContent ls' = recordContent ls := by
  have hk := hp.map (·.kind)
  obtain ⟨l, e, hl⟩ := one_game hw h1 h2
  obtain ⟨l', e', hl'⟩ := one_game ha ((hk.count_eq _).symm.trans h1) (hk.subset h2)
  have hc : (recordContent ls).Perm (recordContent ls') := hp.filter _
  have hlen : l.length = l'.length := by
    have := hc.length_eq
    have a := congrArg List.length e
    have b := congrArg List.length e'
    simp only [List.length_map, List.length_cons] at a b
    omega
  have : l = l' := successive_unique hl hl' hlen
  subst this
  refine (perm_keys (·.kind) hc (e.trans e'.symm) ?_).symm
  rw [e]
  have hr := successive_rank hl
  refine List.nodup_cons.2 ⟨fun hm => ?_, List.nodup_cons.2 ⟨fun hm => ?_, successive_nodup hl⟩⟩
  · rcases List.mem_cons.1 hm with h | h
    · simp at h
    · have := hr _ h; simp [kindRank] at this
  · have := hr _ hm; simp [kindRank] at this

/-- **C107**: the games of a record may be in any order. -/
theorem C107_games (k : Kind) (hk : k = .matchLength) (e : Nat) (gs gs' : List (List Kind)) (hne : gs ≠ [])
    (hg : ∀ g ∈ gs, IsGame g) (hp : gs.Perm gs') :
    (LineValidator.new.run (k :: List.replicate e .empty ++ gs'.flatten)).isOk = true := by
  subst hk
  refine C33_accepts_partial _ ⟨e, gs', ?_, fun g h => hg g (hp.symm.subset h), rfl⟩
  intro c
  subst c
  exact hne hp.eq_nil

/-- A record of two games, for which the second is found before the first. -/
def exTwoGames : List Line :=
  [⟨.matchLength, t!" 5 point match\n"⟩, ⟨.gameHeader, t!" Game 1\n"⟩, ⟨.playerHeader, t!" a : 0  b : 0\n"⟩, ⟨.moves 1, t!" 1) 31: 8/5 6/5\n"⟩,
   ⟨.gameHeader, t!" Game 2\n"⟩, ⟨.playerHeader, t!" a : 1  b : 0\n"⟩, ⟨.moves 1, t!" 1) 65: 24/13\n"⟩]

/-- **C107** is false: with more than one game, the games, and the lines with the same number, can be exchanged: here
the first move of the one game is written in the other. -/
theorem C107_false : ¬ C107_order_statement := by
  intro h
  have := h exTwoGames
    [⟨.matchLength, t!" 5 point match\n"⟩, ⟨.gameHeader, t!" Game 1\n"⟩, ⟨.playerHeader, t!" a : 0  b : 0\n"⟩, ⟨.moves 1, t!" 1) 65: 24/13\n"⟩,
     ⟨.gameHeader, t!" Game 2\n"⟩, ⟨.playerHeader, t!" a : 1  b : 0\n"⟩, ⟨.moves 1, t!" 1) 31: 8/5 6/5\n"⟩]
    ⟨0, [[.gameHeader, .playerHeader, .moves 1], [.gameHeader, .playerHeader, .moves 1]], by simp, by
      intro g hg
      simp only [List.mem_cons, List.not_mem_nil, or_false, or_self] at hg
      subst hg
      exact ⟨1, false, 0, by omega, rfl⟩, rfl⟩
    (by decide +kernel) (by decide +kernel)
  exact absurd this (by decide +kernel)

/-- C107_order_partial has instances: a record of one game with empty lines. -/
example : (LineValidator.new.run [.matchLength, .empty, .gameHeader, .playerHeader, .moves 1, .moves 2, .empty]).isOk = true ∧
    (LineValidator.new.run [.matchLength, .gameHeader, .playerHeader, .moves 1, .moves 2, .empty, .empty]).isOk = true ∧
    (LineValidator.new.run [.matchLength, .gameHeader, .playerHeader, .moves 2, .moves 1, .empty, .empty]).isOk = false := by
  decide

/-- C107_digest and C107_once have instances. -/
example : ∃ v, (Validator.new none).validate exTwoGames = .ok v ∧ v.h = allText exTwoGames ∧
    v.validate exTwoGames = .error .valueError := by
  refine ⟨⟨allText exTwoGames, ⟨.moves, some 1⟩, (allText exTwoGames).length, 0⟩, ?_, rfl, ?_⟩ <;> decide +kernel

end Bglib
