import Verif.Lemmas.Overlap
import Verif.Spec.Ambiguous
namespace Bglib
open Spec

/-! ### All pairs -/

def compiledRun : List (Text × List (List Item)) := runEffective.map fun e => (e.1, e.2.filterMap compileRe)

/-- The first `n` entries meet only the permitted ones among those behind them. -/
def clearTo : Nat → List (Text × List (List Item)) → Bool
  | 0, _ => true
  | _ + 1, [] => true
  | n + 1, e :: r =>
    (r.all fun f => !(e.2.any fun p => f.2.any fun q => meet 400 p q) ||
      ambiguous.any fun x => x == (e.1, f.1) || x == (f.1, e.1)) && clearTo n r

theorem clear0 : clearTo 30 compiledRun = true := by decide +kernel
theorem clear1 : clearTo 40 (compiledRun.drop 30) = true := by decide +kernel
theorem clear2 : clearTo 60 (compiledRun.drop 70) = true := by decide +kernel
theorem clear3 : clearTo 300 (compiledRun.drop 130) = true := by decide +kernel
theorem compiledRun_length : compiledRun.length ≤ 430 := by decide +kernel

theorem clearTo_get (n : Nat) (l : List (Text × List (List Item))) (h : clearTo n l = true) (i j : Nat) (hi : i < n) (hij : i < j)
    (e f) (he : l[i]? = some e) (hf : l[j]? = some f) (p q) (hp : p ∈ e.2) (hq : q ∈ f.2) (hm : meet 400 p q = true) :
    (e.1, f.1) ∈ ambiguous ∨ (f.1, e.1) ∈ ambiguous := by
  induction n generalizing l i j with
  | zero => omega
  | succ n ih =>
    cases l with
    | nil => simp at he
    | cons x r =>
      rw [clearTo, Bool.and_eq_true] at h
      cases j with
      | zero => omega
      | succ j =>
        cases i with
        | zero =>
          simp only [List.getElem?_cons_zero, Option.some.injEq] at he
          subst he
          simp only [List.getElem?_cons_succ] at hf
          have := List.all_eq_true.1 h.1 f (List.mem_of_getElem? hf)
          rw [Bool.or_eq_true] at this
          rcases this with h1 | h1
          · rw [Bool.not_eq_true', List.any_eq_false] at h1
            exact absurd (List.any_eq_true.2 ⟨q, hq, hm⟩) (h1 p hp)
          · obtain ⟨y, hy, h2⟩ := List.any_eq_true.1 h1
            simp only [Bool.or_eq_true, beq_iff_eq] at h2
            rcases h2 with rfl | rfl
            · exact Or.inl hy
            · exact Or.inr hy
        | succ i =>
          simp only [List.getElem?_cons_succ] at he hf
          exact ih r h.2 i j (by omega) (by omega) he hf

theorem clear_all (i j : Nat) (hij : i < j) (e f) (he : compiledRun[i]? = some e) (hf : compiledRun[j]? = some f)
    (p q) (hp : p ∈ e.2) (hq : q ∈ f.2) (hm : meet 400 p q = true) :
    (e.1, f.1) ∈ ambiguous ∨ (f.1, e.1) ∈ ambiguous := by
  have hl := compiledRun_length
  have hi : i < compiledRun.length := (List.getElem?_eq_some_iff.1 he).1
  by_cases h1 : i < 30
  · exact clearTo_get _ _ clear0 i j h1 hij e f he hf p q hp hq hm
  · by_cases h2 : i < 70
    · refine clearTo_get _ _ clear1 (i - 30) (j - 30) (by omega) (by omega) e f ?_ ?_ p q hp hq hm
      · rw [List.getElem?_drop, show 30 + (i - 30) = i by omega]; exact he
      · rw [List.getElem?_drop, show 30 + (j - 30) = j by omega]; exact hf
    · by_cases h3 : i < 130
      · refine clearTo_get _ _ clear2 (i - 70) (j - 70) (by omega) (by omega) e f ?_ ?_ p q hp hq hm
        · rw [List.getElem?_drop, show 70 + (i - 70) = i by omega]; exact he
        · rw [List.getElem?_drop, show 70 + (j - 70) = j by omega]; exact hf
      · refine clearTo_get _ _ clear3 (i - 130) (j - 130) (by omega) (by omega) e f ?_ ?_ p q hp hq hm
        · rw [List.getElem?_drop, show 130 + (i - 130) = i by omega]; exact he
        · rw [List.getElem?_drop, show 130 + (j - 130) = j by omega]; exact hf

theorem matchesName_mem (tbl : Table) (msg n : Text) (h : matchesName tbl msg n = true) :
    ∃ ps, (n, ps) ∈ tbl ∧ ∃ p ∈ ps, reMatch p msg = true := by
  unfold matchesName at h
  split at h
  · next ps hps => exact ⟨ps, lookup_mem _ _ _ hps, List.any_eq_true.1 h⟩
  · exact absurd h Bool.false_ne_true

theorem compiled_of_name (msg n : Text) (h : matchesName runTable msg n = true) :
    ∃ (i : Nat) (e : Text × List (List Item)) (p : List Item), compiledRun[i]? = some e ∧ e.1 = n ∧ p ∈ e.2 ∧ matchItems p msg = true := by
  obtain ⟨ps, hmem, p, hp, hm⟩ := matchesName_mem _ _ _ h
  rw [runTable_eq] at hmem
  unfold reMatch at hm
  split at hm
  · next items hc =>
    have : (n, ps.filterMap compileRe) ∈ compiledRun := List.mem_map.2 ⟨(n, ps), hmem, rfl⟩
    obtain ⟨i, hi⟩ := List.mem_iff_getElem?.1 this
    exact ⟨i, _, items, hi, rfl, List.mem_filterMap.2 ⟨p, hp, hc⟩, hm⟩
  · exact absurd hm Bool.false_ne_true

theorem names_of_matches (ph : Phase) (msg n : Text) (h : matchesName (tableOf ph) msg n = true) : n ∈ (tableOf ph).map (·.1) := by
  unfold matchesName at h
  split at h
  · next ps hps => exact List.mem_map.2 ⟨_, lookup_mem _ _ _ hps, rfl⟩
  · exact absurd h Bool.false_ne_true

/-! ### Names all of whose messages are those of another one -/

theorem reads_prefix (q r : List Item) (s : Text) (h : Reads (q ++ r) s) : Reads q s := by
  induction q generalizing s with
  | nil => exact .done s
  | cons x q ih =>
    rw [List.cons_append] at h
    cases h with
    | eol _ _ h1 h2 => exact .eol _ _ h1 (ih _ h2)
    | one _ _ _ _ h1 h2 => exact .one _ _ _ _ h1 (ih _ h2)
    | opt _ _ _ _ h0 h1 h2 => exact .opt _ _ _ _ h0 h1 (ih _ h2)
    | star _ _ _ _ h1 h2 => exact .star _ _ _ _ h1 (ih _ h2)
    | plus _ _ _ _ h0 h1 h2 => exact .plus _ _ _ _ h0 h1 (ih _ h2)

/-! ### The list of last matches -/

theorem stateCookie_last (m : Monster) (order : Phase → List Text) (msg : Text) (ho : ValidOrder order) (hi : MInv m) :
    (m.stateCookie order msg).2.lastMatch = m.lastMatch ∨
    ∃ n, ¬ (m.phase = .run ∧ msg = []) ∧ firstMatch m order msg = some n ∧ (m.stateCookie order msg).2.lastMatch = n :: m.lastMatch.erase n := by
  by_cases he : m.phase = .run ∧ msg = []
  · left
    unfold Monster.stateCookie
    rw [if_pos he]
  · cases hf : firstMatch m order msg with
    | some n =>
      obtain ⟨m', h1, _, _, h4⟩ := stateCookie_spec m order msg ho hi
      exact Or.inr ⟨n, he, rfl, by rw [h1]; exact h4 n he hf⟩
    | none =>
      left
      obtain ⟨cache', hr, hc⟩ := tryNames_spec m.phase msg (m.lastMatch ++ order m.phase) m.cache hi.coherent (by
        intro n hn
        rcases List.mem_append.1 hn with hn | hn
        · exact hi.names n hn
        · exact (ho m.phase).mem_iff.1 hn)
      unfold firstMatch at hf
      unfold Monster.stateCookie
      rw [if_neg he, hr, hf]

/-- The list of last matches after a message: that of a new phase, or the old one, or with the answer moved to the front. -/
theorem makeCookie_last (m : Monster) (order : Phase → List Text) (msg : Text) (ho : ValidOrder order) (hi : MInv m) :
    ((m.makeCookie order msg).2.phase ≠ m.phase ∧ (m.makeCookie order msg).2.lastMatch = initialLast (m.makeCookie order msg).2.phase) ∨
    ((m.makeCookie order msg).2.phase = m.phase ∧ ((m.makeCookie order msg).2.lastMatch = m.lastMatch ∨
      ∃ n, ¬ (m.phase = .run ∧ msg = []) ∧ firstMatch m order msg = some n ∧ (m.makeCookie order msg).2.lastMatch = n :: m.lastMatch.erase n)) := by
  have h5 := stateCookie_last m order msg ho hi
  obtain ⟨m', h1, h2, h3, h4⟩ := stateCookie_spec m order msg ho hi
  rw [h1] at h5
  unfold Monster.makeCookie
  rw [h1]
  dsimp only at h5 ⊢
  generalize (if m.phase = .run ∧ msg = [] then t!"FIBS_Empty"
        else (firstMatch m order msg).getD (defaultCookie m.phase)) = c
  have same : m'.phase = m.phase ∧ (m'.lastMatch = m.lastMatch ∨
      ∃ n, ¬ (m.phase = .run ∧ msg = []) ∧ firstMatch m order msg = some n ∧ m'.lastMatch = n :: m.lastMatch.erase n) := ⟨h3, h5⟩
  unfold Monster.nextState
  split <;> split
  all_goals first
    | exact Or.inr same
    | (next hq _ => left; refine ⟨fun h => ?_, rfl⟩; rw [← h3, hq] at h; cases h)

/-- With `b` tried before `a`, and `b` matching whatever `a` matches, `a` is never among the last matches. -/
theorem never_last (order : Phase → List Text) (ho : ValidOrder order) (a b : Text) (ha : a ∉ initialLast .run)
    (hab : ∀ msg, matchesName runTable msg a = true → matchesName runTable msg b = true)
    (p q r : List Text) (hq : order .run = p ++ b :: q ++ a :: r) (m : Monster) (hr : Reachable order m) :
    m.phase = .run → a ∉ m.lastMatch ∧ ∀ msg, firstMatch m order msg ≠ some a := by
  have key : ∀ m : Monster, m.phase = .run → a ∉ m.lastMatch → ∀ msg, firstMatch m order msg ≠ some a := by
    intro m hp hl msg hf
    have hm : matchesName runTable msg a = true := by
      have := List.find?_some hf
      rw [hp] at this; exact this
    have hb := hab msg hm
    unfold firstMatch at hf
    rw [hp, hq, show m.lastMatch ++ (p ++ b :: q ++ a :: r) = (m.lastMatch ++ p ++ [b]) ++ (q ++ a :: r) by simp,
      List.find?_append] at hf
    have nd : (order .run).Nodup := (ho .run).nodup_iff.2 (table_nodup .run)
    rw [hq] at nd
    have hnp : a ∉ m.lastMatch ++ p ++ [b] := by
      intro h
      rw [show p ++ b :: q ++ a :: r = (p ++ [b]) ++ (q ++ a :: r) by simp, List.nodup_append] at nd
      rcases List.mem_append.1 h with h | h
      · rcases List.mem_append.1 h with h | h
        · exact hl h
        · exact nd.2.2 a (by simp [h]) a (by simp) rfl
      · exact nd.2.2 a (by simp at h; simp [h]) a (by simp) rfl
    cases hk : (m.lastMatch ++ p ++ [b]).find? (matchesName (tableOf .run) msg) with
    | none => exact absurd hb (by simpa [tableOf] using List.find?_eq_none.1 hk b (by simp))
    | some k =>
      rw [hk] at hf
      simp only [Option.some_or, Option.some.injEq] at hf
      subst hf
      exact hnp (List.mem_of_find?_eq_some hk)
  have main : m.phase = .run → a ∉ m.lastMatch := by
    induction hr with
    | new => intro h; exact Phase.noConfusion h
    | step m msg hr ih =>
      intro hp
      rcases makeCookie_last m order msg ho (reachable_inv order ho m hr) with ⟨h1, h2⟩ | ⟨h1, h2 | ⟨n, _, h3, h4⟩⟩
      · rw [h2, hp]; exact ha
      · rw [h2]; exact ih (h1 ▸ hp)
      · have hp' : m.phase = .run := h1 ▸ hp
        rw [h4]
        intro h
        rcases List.mem_cons.1 h with h | h
        · subst h; exact key m hp' (ih hp') msg h3
        · exact ih hp' (List.mem_of_mem_erase h)
  exact fun hp => ⟨main hp, key m hp (main hp)⟩

end Bglib
