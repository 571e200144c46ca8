import Verif.Lemmas.XmlRead
import Verif.Lemmas.Text
/-
What `ElementTree` and plain rules write is plain.
-/
namespace Bglib
open Spec Img

private theorem digit_plain : ∀ d < 10, plainChar (digitChar d) = true ∧ digitChar d ≠ ' ' := by decide

theorem plainLine_of {s : Text} (h1 : s ≠ []) (h2 : s.all plainChar = true) (h3 : ' ' ∉ s) : PlainLine s :=
  ⟨h1, h2, fun h => h3 (List.mem_of_head? h), fun h => h3 (List.mem_of_getLast? h)⟩

theorem plainLine_decimal (n : Nat) : PlainLine (decimal n) := by
  refine plainLine_of (decimal_ne_nil n) (List.all_eq_true.2 fun c hc => ?_) fun hc => ?_ <;>
    obtain ⟨d, hd, he⟩ := decimal_digits hc
  · exact he ▸ (digit_plain d hd).1
  · exact (digit_plain d hd).2 he.symm

theorem plainLine_pyStr (n : Int) : PlainLine (pyStr n) := by
  unfold pyStr
  have h := plainLine_decimal n.natAbs
  split
  · refine ⟨by simp, ?_, by simp, ?_⟩
    · rw [List.all_cons, h.plain]; decide
    · rw [List.getLast?_cons_of_ne_nil h.filled]; exact h.last
  · exact h

theorem allows_plain : Allows PlainValue PlainLine where
  num := plainLine_pyStr
  dec := plainLine_decimal
  yes := ⟨⟨by decide, by decide, by decide, by decide⟩, ⟨by decide, by decide, by decide, by decide⟩⟩
  says := fun p => by
    unfold phrases
    split <;> exact ⟨⟨by decide, by decide, by decide, by decide⟩, ⟨by decide, by decide, by decide, by decide⟩,
      ⟨by decide, by decide, by decide, by decide⟩, ⟨by decide, by decide, by decide, by decide⟩,
      ⟨by decide, by decide, by decide, by decide⟩⟩
  player := fun p => by
    unfold playerText PlainValue
    split <;> decide
  side := ⟨by unfold PlainValue; decide, by unfold PlainValue; decide⟩
  parity := ⟨by unfold PlainValue; decide, by unfold PlainValue; decide⟩

theorem allows_all : Allows (fun _ => True) (fun _ => True) :=
  ⟨fun _ => trivial, fun _ => trivial, ⟨trivial, trivial⟩, fun _ => ⟨trivial, trivial, trivial, trivial, trivial⟩,
    fun _ => trivial, ⟨trivial, trivial⟩, ⟨trivial, trivial⟩⟩

/-! ### Rules -/

private theorem dirname_mem {p : Text} {c : Char} (h : c ∈ dirname p) : c ∈ p := by
  have hd : ∀ c ∈ (p.reverse.dropWhile (· ≠ '/')).reverse, c ∈ p := fun c hc =>
    List.mem_reverse.1 ((List.dropWhile_sublist _).subset (List.mem_reverse.1 hc))
  unfold dirname at h
  dsimp only at h
  split at h
  · exact hd c h
  · exact hd c (List.mem_reverse.1 ((List.dropWhile_sublist _).subset (List.mem_reverse.1 h)))

private theorem join_mem {a b : Text} {c : Char} (h : c ∈ pathJoin a b) : c ∈ a ∨ c ∈ b ∨ c = '/' := by
  unfold pathJoin at h
  split at h
  · exact .inr (.inl h)
  · split at h
    · rcases List.mem_append.1 h with h | h
      · exact .inl h
      · exact .inr (.inl h)
    · rcases List.mem_append.1 h with h | h
      · exact .inl h
      · rcases List.mem_cons.1 h with h | h
        · exact .inr (.inr h)
        · exact .inr (.inl h)

private theorem mem_takeWhile {p : Char → Bool} : ∀ {l : Text} {c : Char}, c ∈ l.takeWhile p → c ∈ l ∧ p c = true
  | x :: l, c, h => by
    rw [List.takeWhile_cons] at h
    split at h
    · rcases List.mem_cons.1 h with rfl | h
      · exact ⟨List.mem_cons_self .., by assumption⟩
      · exact ⟨List.mem_cons_of_mem _ (mem_takeWhile h).1, (mem_takeWhile h).2⟩
    · cases h

theorem ruleAllows_plain {r : Rule} (h : PlainRule r = true) : RuleAllows PlainValue r := by
  intro x hx n c v css hc hcss hv
  unfold PlainRule at h
  rw [Bool.and_eq_true] at h
  have hb := List.all_eq_true.1 h.2 x hx
  have hne : c.kind ≠ .uri → x.2.all plainChar = true := by
    intro hk
    have h1 : x.1 ≠ t!"image" := by
      intro e
      rw [e] at hc
      exact hk (by cases hc; rfl)
    have h2 : x.1 ≠ t!"font" := by
      intro e
      rw [e] at hc
      exact hk (by cases hc; rfl)
    refine List.all_eq_true.2 fun y hy => ?_
    have := List.all_eq_true.1 hb y hy
    simpa [h1, h2] using this
  unfold Kind.parse at hv
  split at hv
  · split at hv
    · cases hv; exact (plainLine_pyStr _).plain
    · cases hv
  · rename_i hk; cases hv; exact hne (by rw [hk]; decide)
  · cases hv; unfold PlainValue Value.text; split <;> first | decide | simp_all
  · split at hv
    · cases hv
    · rename_i p
      split at hv
      · cases hv
      · rename_i f hf
        cases hv
        have hcp : p = r.css := by
          rcases hcss with h | h
          · cases h
          · exact Option.some.inj h
        subst hcp
        refine List.all_eq_true.2 fun y hy => ?_
        rcases join_mem hy with hy | hy | hy
        · exact List.all_eq_true.1 h.1 y (dirname_mem hy)
        · unfold betweenQuotes at hf
          split at hf
          · cases hf
          · rename_i q l hd
            cases hf
            obtain ⟨h1, h2⟩ := mem_takeWhile hy
            have h3 : y ∈ x.2 := (List.dropWhile_sublist _).subset (hd ▸ List.mem_cons_of_mem _ h1)
            have := List.all_eq_true.1 hb y h3
            have h4 : y ≠ '"' := by simpa using h2
            simpa [h4] using this
        · rw [hy]; decide
  all_goals (rename_i hk; cases hv; exact hne (by rw [hk]; decide))

/-! ### Declarations -/

theorem attrNames_of {e : EName} {n : Text} (h : (attlist e n).isSome = true) : n ∈ attrNames e := by
  unfold attlist baseAttlist at h
  by_cases h1 : n = t!"x" ∨ n = t!"y" ∨ n = t!"width" ∨ n = t!"height"
  · rcases h1 with rfl | rfl | rfl | rfl <;> simp [attrNames]
  rw [if_neg h1] at h
  by_cases h2 : n = t!"image"
  · subst h2; simp [attrNames]
  rw [if_neg h2] at h
  by_cases h3 : n = t!"flip"
  · subst h3; simp [attrNames]
  rw [if_neg h3] at h
  by_cases h4 : n = t!"background" ∨ n = t!"color"
  · rcases h4 with rfl | rfl <;> simp [attrNames]
  rw [if_neg h4] at h
  by_cases h5 : n = t!"font"
  · subst h5; simp [attrNames]
  rw [if_neg h5] at h
  by_cases h6 : n = t!"mag"
  · subst h6; simp [attrNames]
  rw [if_neg h6] at h
  unfold extraAttlist at h
  dsimp only at h
  refine List.mem_append_right _ ?_
  split at h
  all_goals
    repeat' split at h
  all_goals first
    | (simp at h; done)
    | (simp_all; done)
    | (rename_i he; rcases he with rfl | rfl | rfl | rfl <;> simp)

theorem attlist_of {e : EName} {n : Text} (h : n ∈ attrNames e) : (attlist e n).isSome = true := by
  revert n
  cases e <;> decide

theorem valid_sound {A : Value → Prop} {S : Text → Prop} {t : Tree} (h : Sound A S t) :
    Obeys (registered.map EName.decl) (describe t) := by
  induction h with
  | node e ks hp _ ih =>
    unfold describe
    rw [describeAll_eq]
    have hreg : e.name ∈ registered := by cases e.name <;> decide
    refine .node e.name.decl _ _ _ _ (List.mem_map.2 ⟨_, hreg, rfl⟩) rfl ?_ ?_ ?_ ?_
    · intro x hx
      obtain ⟨y, hy, rfl⟩ := List.mem_map.1 hx
      exact attrNames_of (hp.attrs y hy).1
    · intro hd
      unfold EName.decl
      rw [hp.text hd]
      exact List.mem_append_left _ (List.mem_cons_self ..)
    · intro x hx
      obtain ⟨k, hk, rfl⟩ := List.mem_map.1 hx
      have : (describe k).name = k.elem.name.text := by cases k; unfold describe; rfl
      rw [this]
      exact List.mem_append_right _ (List.mem_map.2 ⟨_, hp.kids k hk, rfl⟩)
    · intro x hx
      obtain ⟨k, hk, rfl⟩ := List.mem_map.1 hx
      exact ih k hk

/-- The tree of a board in a style. -/
theorem sound_of_board {A : Value → Prop} {S : Text → Prop} (hA : Allows A S) {b : Board} {t : ETree} {t' : Tree}
    {rules : List Rule} (hr : ∀ r ∈ rules, RuleAllows A r) (hb : ETree.create.set b = .ok t)
    (hs : t.board.styled rules [] = .ok t') : Sound A S t' :=
  (sound_styled hr t.board (parts_board (parts_set hA (parts_create hA) hb)) hs).1

end Bglib
