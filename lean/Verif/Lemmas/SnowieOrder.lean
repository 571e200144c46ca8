import Verif.Spec.SnowieOrder
import Verif.Props.Snowie
/-
Helper lemmas on validators and on the order of the lines of a record.
-/
namespace Bglib
open Spec Snowie

theorem validate_loop_digest (ls : List Line) : ∀ v : Validator,
    (validateLoop v.max v.linev v.size ls = .ok () ∧
      ∃ l, v.validate ls = .ok { v with h := v.h ++ allText ls, linev := l, size := v.size + (allText ls).length }) ∨
    ∃ e, validateLoop v.max v.linev v.size ls = .error e ∧ v.validate ls = .error e := by
  induction ls with
  | nil => intro v; left; exact ⟨rfl, v.linev, by simp [Validator.validate, allText]⟩
  | cons a ls ih =>
    intro v
    simp only [validateLoop, Validator.validate, Validator.feed]
    cases hp : v.linev.parse a.kind with
    | error e => right; exact ⟨e, rfl, rfl⟩
    | ok l =>
      simp only
      split
      · right; exact ⟨_, rfl, rfl⟩
      · have := ih { v with h := v.h ++ a.text, linev := l, size := v.size + a.text.length }
        rcases this with ⟨h1, l', h2⟩ | h
        · left
          refine ⟨h1, l', ?_⟩
          rw [h2]
          simp [allText, Nat.add_assoc]
        · right; exact h

theorem parse_started {v v' : LineValidator} {k : Kind} (h : v.parse k = .ok v') (hk : k ≠ .result ∨ v.state ≠ .start) :
    v'.state ≠ .start := by
  have enter : ∀ n : State, n ≠ .start → v.enter n = .ok v' → v'.state ≠ .start := by
    intro n hn h
    unfold LineValidator.enter at h
    split at h
    · cases h
    · split at h
      · split at h
        · rw [← Except.ok.inj h]; exact hn
        · cases h
      · rw [← Except.ok.inj h]; exact hn
  cases k with
  | empty => exact enter _ (by decide) h
  | matchLength => exact enter _ (by decide) h
  | gameHeader => exact enter _ (by decide) h
  | playerHeader => exact enter _ (by decide) h
  | moves n =>
    simp only [LineValidator.parse] at h
    split at h
    · next w hw =>
      split at h
      · rw [← Except.ok.inj h]
        have : ∀ w, v.enter .moves = .ok w → w.state ≠ .start := by
          intro w h
          unfold LineValidator.enter at h
          split at h
          · cases h
          · split at h
            · split at h
              · rw [← Except.ok.inj h]; simp
              · cases h
            · rw [← Except.ok.inj h]; simp
        exact this w hw
      · cases h
    · cases h
  | result =>
    simp only [LineValidator.parse] at h
    rw [← Except.ok.inj h]
    exact hk.resolve_left (by simp)
  | bad => simp [LineValidator.parse] at h

theorem validate_started (ls : List Line) : ∀ v v' : Validator, v.validate ls = .ok v' →
    v.linev.state ≠ .start ∨ (∃ l ∈ ls, l.kind ≠ .result) → v'.linev.state ≠ .start := by
  induction ls with
  | nil =>
    intro v v' h hs
    simp only [Validator.validate] at h
    rw [← Except.ok.inj h]
    rcases hs with hs | ⟨l, hl, _⟩
    · exact hs
    · simp at hl
  | cons a ls ih =>
    intro v v' h hs
    simp only [Validator.validate] at h
    split at h
    · cases h
    · next w hw =>
      split at h
      · cases h
      · unfold Validator.feed at hw
        split at hw
        · cases hw
        · next l hl =>
          have e := Except.ok.inj hw
          refine ih w v' h ?_
          rcases hs with hs | ⟨x, hx, hk⟩
          · left; rw [← e]; exact parse_started hl (.inr hs)
          · rcases List.mem_cons.1 hx with rfl | hx
            · left; rw [← e]; exact parse_started hl (.inl hk)
            · right; exact ⟨x, hx, hk⟩

/-- What must come next in a game. -/
def nextKind : Kind → Option Kind
  | .gameHeader => some .playerHeader
  | .playerHeader => some (.moves 1)
  | .moves n => some (.moves (n + 1))
  | _ => none

/-- Each of the kinds must come next. -/
def Successive : Kind → List Kind → Prop
  | _, [] => True
  | p, k :: ks => nextKind p = some k ∧ Successive k ks

theorem successive_unique {p : Kind} : ∀ {l l' : List Kind}, Successive p l → Successive p l' → l.length = l'.length → l = l' := by
  intro l
  induction l generalizing p with
  | nil => intro l' _ _ hl; cases l' with | nil => rfl | cons => simp at hl
  | cons k ks ih =>
    intro l' h h' hl
    cases l' with
    | nil => simp at hl
    | cons k' ks' =>
      have : k = k' := Option.some.inj (h.1.symm.trans h'.1)
      subst this
      rw [ih h.2 h'.2 (by simpa using hl)]

/-- Place of a kind in a game. -/
def kindRank : Kind → Nat
  | .empty => 0
  | .matchLength => 0
  | .gameHeader => 1
  | .playerHeader => 2
  | .moves n => n + 2
  | _ => 0

theorem successive_rank : ∀ {p : Kind} {l : List Kind}, Successive p l → ∀ k ∈ l, kindRank p < kindRank k := by
  intro p l
  induction l generalizing p with
  | nil => intro _ k hk; simp at hk
  | cons x xs ih =>
    intro h k hk
    have hx : kindRank p < kindRank x := by
      have := h.1
      cases p <;> simp [nextKind] at this <;> subst this <;> simp [kindRank]
    rcases List.mem_cons.1 hk with rfl | hk
    · exact hx
    · exact Nat.lt_trans hx (ih h.2 k hk)

theorem successive_nodup : ∀ {p : Kind} {l : List Kind}, Successive p l → l.Nodup := by
  intro p l
  induction l generalizing p with
  | nil => intro _; exact List.nodup_nil
  | cons x xs ih =>
    intro h
    refine List.nodup_cons.2 ⟨fun hx => ?_, ih h.2⟩
    have := successive_rank h.2 x hx
    omega

/-- Without a further game header nothing but empty lines follows an empty line. -/
theorem chained_after_empty : ∀ {ks : List Kind}, Chained (some .empty) ks → .gameHeader ∉ ks →
    ks.filter (· ≠ .empty) = [] := by
  intro ks
  induction ks with
  | nil => intro _ _; rfl
  | cons k ks ih =>
    intro h hn
    have hk : k = .empty := by
      have := h.1
      cases k <;> simp_all [MayFollow]
    subst hk
    simp only [ne_eq, not_true_eq_false, decide_false, Bool.false_eq_true, not_false_eq_true, List.filter_cons_of_neg]
    exact ih h.2 (fun c => hn (List.mem_cons_of_mem _ c))

/-- In a game each line must be the next. -/
theorem chained_game_next : ∀ {ks : List Kind} {p : Kind}, p = .gameHeader ∨ p = .playerHeader ∨ (∃ n, p = .moves n) →
    Chained (some p) ks → .gameHeader ∉ ks → Successive p (ks.filter (· ≠ .empty)) := by
  intro ks
  induction ks with
  | nil => intro p _ _ _; trivial
  | cons k ks ih =>
    intro p hp h hn
    by_cases hk : k = .empty
    · subst hk
      simp only [ne_eq, not_true_eq_false, decide_false, Bool.false_eq_true, not_false_eq_true, List.filter_cons_of_neg]
      have h2 : Chained (some .empty) ks := h.2
      have := chained_after_empty h2 (fun c => hn (List.mem_cons_of_mem _ c))
      simp only [ne_eq, decide_not] at this ⊢
      rw [this]; trivial
    · rw [List.filter_cons_of_pos (by simpa using hk)]
      have hkg : k ≠ .gameHeader := fun c => hn (c ▸ List.mem_cons_self)
      have h1 := h.1
      have : nextKind p = some k ∧ (k = .gameHeader ∨ k = .playerHeader ∨ (∃ n, k = .moves n)) := by
        rcases hp with rfl | rfl | ⟨n, rfl⟩ <;> cases k <;> simp_all [MayFollow, nextKind]
      exact ⟨this.1, ih this.2 h.2 (fun c => hn (List.mem_cons_of_mem _ c))⟩

/-- Before the game there are only empty lines. -/
theorem chained_before {ks : List Kind} : ∀ {p : Kind}, p = .matchLength ∨ p = .empty → Chained (some p) ks →
    ks.count .gameHeader = 1 → ∃ l, ks.filter (· ≠ .empty) = .gameHeader :: l ∧ Successive .gameHeader l := by
  induction ks with
  | nil => intro p _ _ h; simp at h
  | cons k ks ih =>
    intro p hp h hc
    have h1 := h.1
    have hk : k = .empty ∨ k = .gameHeader := by
      rcases hp with rfl | rfl <;> cases k <;> simp_all [MayFollow]
    rcases hk with rfl | rfl
    · obtain ⟨l, e, hl⟩ := ih (.inr rfl) h.2 (by simpa [List.count_cons] using hc)
      refine ⟨l, ?_, hl⟩
      simp only [ne_eq, not_true_eq_false, decide_false, Bool.false_eq_true, not_false_eq_true, List.filter_cons_of_neg]
      exact e
    · rw [List.filter_cons_of_pos (by simp)]
      refine ⟨_, rfl, chained_game_next (.inl rfl) h.2 ?_⟩
      rw [List.count_cons] at hc
      simp only [BEq.rfl, if_true] at hc
      exact List.count_eq_zero.1 (by omega)

/-- The contents of a record of one game. -/
theorem one_game {ls : List Line} (h : (LineValidator.new.run (ls.map (·.kind))).isOk = true)
    (h1 : (ls.map (·.kind)).count .gameHeader = 1) (h2 : .matchLength ∈ ls.map (·.kind)) :
    ∃ l, (recordContent ls).map (·.kind) = .matchLength :: .gameHeader :: l ∧ Successive .gameHeader l := by
  have hc := (C33_exact _).1.1 h
  have e : (recordContent ls).map (·.kind) = (significant (ls.map (·.kind))).filter (· ≠ .empty) := by
    simp only [recordContent, significant, List.filter_filter, List.filter_map]
    congr 1
    apply List.filter_congr
    intro l _
    simp [Function.comp, Bool.and_comm]
  rw [e]
  have hcount : (significant (ls.map (·.kind))).count .gameHeader = 1 := by
    rw [significant, List.count_filter (by decide)]; exact h1
  have hmem : .matchLength ∈ significant (ls.map (·.kind)) := by
    rw [significant, List.mem_filter]; exact ⟨h2, by decide⟩
  revert hc hcount hmem
  generalize significant (ls.map (·.kind)) = ks
  intro hc hcount hmem
  cases ks with
  | nil => simp at hmem
  | cons k ks =>
    have hk : k = .matchLength ∨ k = .empty := by
      have := hc.1
      cases k <;> simp_all [MayFollow]
    rcases hk with rfl | rfl
    · obtain ⟨l, e, hl⟩ := chained_before (.inl rfl) hc.2 (by simpa [List.count_cons] using hcount)
      exact ⟨l, by rw [List.filter_cons_of_pos (by simp), e], hl⟩
    · exfalso
      have never : ∀ {ks : List Kind} {p : Kind}, Chained (some p) ks → .matchLength ∉ ks := by
        intro ks
        induction ks with
        | nil => intro p _; simp
        | cons k ks ih =>
          intro p h hm
          rcases List.mem_cons.1 hm with rfl | hm
          · have := h.1
            cases p <;> simp [MayFollow] at this
          · exact ih h.2 hm
      rcases List.mem_cons.1 hmem with h | h
      · simp at h
      · exact never hc.2 h

/-- Two arrangements of things that are known by different keys, with the same order of the keys, are the same. -/
theorem perm_keys {α β : Type} (f : α → β) : ∀ {l l' : List α}, l.Perm l' → l.map f = l'.map f → (l.map f).Nodup → l = l' := by
  intro l
  induction l with
  | nil => intro l' h _ _; exact h.nil_eq.symm ▸ rfl
  | cons x xs ih =>
    intro l' hp hm hn
    cases l' with
    | nil => simp at hm
    | cons y ys =>
      simp only [List.map_cons, List.cons.injEq] at hm
      have hx : x = y := by
        rcases List.mem_cons.1 (hp.subset List.mem_cons_self) with h | h
        · exact h
        · exfalso
          rw [List.map_cons, List.nodup_cons, hm.2] at hn
          exact hn.1 (List.mem_map.2 ⟨x, h, rfl⟩)
      subst hx
      rw [ih ((List.perm_cons x).1 hp) hm.2 (List.nodup_cons.1 hn).2]

end Bglib
