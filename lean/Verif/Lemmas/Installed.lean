import Verif.Spec.Installed
import Verif.Lemmas.Import
/-
Importing from a part of a library.
-/
namespace Bglib.Import

/-- The statement needs nothing outside of the part. -/
def keeps (l l' : Library) : Stmt → Bool
  | .imp pl p _ => (chain (p.reverse ++ pl)).all l'.has
  | .frm pl p ns => (chain (p.reverse ++ pl)).all l'.has && ns.all fun e => !l.has (e.1 :: (p.reverse ++ pl)) || l'.has (e.1 :: (p.reverse ++ pl))
  | .star pl p => (chain (p.reverse ++ pl)).all l'.has && l.all fun k => !samePath k.path.tail (p.reverse ++ pl) || l'.has k.path
  | _ => true

/-- A part of a library that needs nothing but itself. -/
structure PartOf (l l' : Library) : Prop where
  find : ∀ p, l'.has p = true → l'.find p = l.find p
  parent : ∀ n q, l'.has (n :: q) = true → q = [] ∨ l'.has q = true
  body : ∀ m ∈ l', ∀ c ∈ m.body, keeps l l' c = true

variable {l l' : Library}

theorem part_has (h : PartOf l l') {p : Path} (hp : l'.has p = true) : l.has p = true := by
  have := h.find p hp
  unfold Library.has at hp ⊢
  rw [← this]
  exact hp

theorem each_congr {α : Type} {f g : α → State → Out} : ∀ (L : List α) (_ : ∀ a ∈ L, ∀ s, f a s = g a s) (s : State),
    each f L s = each g L s
  | [], _, _ => rfl
  | a :: L, h, s => by
    simp only [each]
    rw [h a (by simp) s, each_congr_fun L fun b hb => h b (by simp [hb])]
where
  each_congr_fun {α : Type} {f g : α → State → Out} (L : List α) (h : ∀ a ∈ L, ∀ s, f a s = g a s) :
      each f L = each g L := funext fun s => each_congr L h s

theorem each_append {α : Type} {f : α → State → Out} : ∀ (L M : List α) (s : State),
    each f (L ++ M) s = (each f L s).andThen (each f M)
  | [], M, s => rfl
  | a :: L, M, s => by
    simp only [List.cons_append, each]
    cases f a s with
    | none => rfl
    | some r =>
      obtain ⟨s1, b⟩ := r
      cases b
      · rfl
      · exact each_append L M s1

theorem ensure_part {ld ld' : Path → State → Out} (h : PartOf l l') (hld : ∀ p, l'.has p = true → ∀ s, ld' p s = ld p s) (q : Path)
    (n : Name) (hn : l.has (n :: q) = true → l'.has (n :: q) = true) (s : State) :
    ensure l' ld' q n s = ensure l ld q n s := by
  unfold ensure
  cases s.entry q n with
  | some v => rfl
  | none =>
    dsimp only
    by_cases hl : l.has (n :: q) = true
    · rw [if_pos hl, if_pos (hn hl), hld _ (hn hl)]
    · rw [if_neg hl, if_neg fun e => hl (part_has h e)]

theorem exec_part {ld ld' : Path → State → Out} (h : PartOf l l') (hld : ∀ p, l'.has p = true → ∀ s, ld' p s = ld p s) (m : Module)
    (c : Stmt) (hc : keeps l l' c = true) (s : State) : exec l' ld' m c s = exec l ld m c s := by
  have hch : ∀ q : Path, (chain q).all l'.has = true → ∀ s, each ld' (chain q) s = each ld (chain q) s := fun q hq =>
    each_congr _ fun p hp => hld p (List.all_eq_true.1 hq p hp)
  cases c with
  | bind n => rfl
  | all ns => rfl
  | use r => rfl
  | imp pl p as =>
    simp only [exec]
    rw [hch _ hc]
  | frm pl p ns =>
    simp only [keeps, Bool.and_eq_true] at hc
    simp only [exec]
    rw [hch _ hc.1]
    congr 1
    funext s1
    congr 1
    refine each_congr _ (fun e he s2 => ensure_part h hld _ _ ?_ s2) s1
    intro hl
    have := List.all_eq_true.1 hc.2 e he
    simpa [hl] using this
  | star pl p =>
    simp only [keeps, Bool.and_eq_true] at hc
    simp only [exec]
    rw [hch _ hc.1]
    congr 1
    funext s1
    unfold starFrom
    cases s1.space (p.reverse ++ pl) with
    | none => rfl
    | some sp =>
      dsimp only
      split
      · congr 1
        refine each_congr _ (fun n _ s2 => ensure_part h hld _ n ?_ s2) s1
        intro hl
        obtain ⟨k, hk, hp⟩ := has_iff.1 hl
        have := List.all_eq_true.1 hc.2 k hk
        rw [hp] at this
        simpa [samePath_self] using this
      · rfl
      · rfl

theorem load_part (h : PartOf l l') : ∀ (f : Nat) (p : Path), l'.has p = true → ∀ s, load l' f p s = load l f p s
  | 0, _, _, _ => rfl
  | f + 1, p, hp, s => by
    have ih := load_part h f
    unfold load
    rw [h.find p hp]
    cases hm : l.find p with
    | none => rfl
    | some m =>
      have hml : m ∈ l' := by
        have := h.find p hp
        rw [hm] at this
        exact List.mem_of_find?_eq_some this
      have e : each (exec l' (load l' f) m) m.body ((p, []) :: s) = each (exec l (load l f) m) m.body ((p, []) :: s) :=
        each_congr _ (fun c hc s => exec_part h ih m c (h.body m hml c hc) s) _
      dsimp only
      rw [e]

theorem chain_part (h : PartOf l l') : ∀ (p : Path), l'.has p = true → ∀ q ∈ chain p, l'.has q = true
  | [], _, q, hq => by cases hq
  | n :: p, hp, q, hq => by
    simp only [chain, List.mem_append, List.mem_singleton] at hq
    rcases hq with hq | hq
    · rcases h.parent n p hp with e | e
      · subst e; cases hq
      · exact chain_part h p e q hq
    · rw [hq]; exact hp

theorem chain_load (h : PartOf l l') (f : Nat) {p : Path} (hp : l'.has p = true) (s : State) :
    each (load l' f) (chain p) s = each (load l f) (chain p) s :=
  each_congr _ (fun q hq s => load_part h f q (chain_part h p hp q hq) s) s

/-- What has happened after an import from the part, happens with the whole as well. -/
theorem importing_part (h : PartOf l l') (f : Nat) : ∀ (p : Path) (s s' : State) (b : Bool),
    each (load l' f) (chain p) s = some (s', b) → ∃ p' b', each (load l f) (chain p') s = some (s', b')
  | [], s, s', b, e => ⟨[], b, e⟩
  | n :: q, s, s', b, e => by
    by_cases hp : l'.has (n :: q) = true
    · exact ⟨n :: q, b, by rw [← chain_load h f hp]; exact e⟩
    · have e' := e
      simp only [chain] at e'
      rw [each_append] at e'
      cases hq : each (load l' f) (chain q) s with
      | none => rw [hq] at e'; cases e'
      | some r =>
        obtain ⟨s1, b1⟩ := r
        have ih := importing_part h f q s s1 b1 hq
        rw [hq] at e'
        have hs : s' = s1 := by
          cases b1 with
          | false => cases e'; rfl
          | true =>
            simp only [Out.andThen, each] at e'
            cases f with
            | zero => simp [load] at e'
            | succ f =>
              have hn : l'.find (n :: q) = none := by
                cases hf : l'.find (n :: q) with
                | none => rfl
                | some m => exact absurd (by unfold Library.has; rw [hf]; rfl) hp
              unfold load at e'
              cases hsp : s1.space (n :: q) with
              | some sp => rw [hsp] at e'; cases e'; rfl
              | none =>
                rw [hsp, hn] at e'
                simp only [ite_self] at e'
                cases e'
                rfl
        rw [hs]
        exact ih

theorem each_le {f g : Nat} (hfg : f ≤ g) (L : List Path) (s : State) (r : State × Bool)
    (e : each (load l f) L s = some r) : each (load l g) L s = some r :=
  each_mono (fun _ _ _ h => load_le hfg h) L s r e

/-- A part is chosen by a property that two modules of the same path share. -/
def selfReliant (l : Library) (P : Module → Bool) (l' : Library) : Bool :=
  (l.all fun k => !l'.has k.path || P k) && l'.all fun m => (samePath m.path.tail [] || l'.has m.path.tail) && m.body.all (keeps l l')

theorem part_filter {P : Module → Bool} (h : selfReliant l P (l.filter P) = true) : PartOf l (l.filter P) := by
  simp only [selfReliant, Bool.and_eq_true] at h
  obtain ⟨h1, h2⟩ := h
  have h2' := List.all_eq_true.1 h2
  refine ⟨fun p hp => ?_, fun n q hp => ?_, fun m hm c hc => ?_⟩
  · unfold Library.find
    rw [List.find?_filter]
    have : ∀ k ∈ l, (decide (P k = true ∧ samePath k.path p = true)) = samePath k.path p := by
      intro k hk
      by_cases e : samePath k.path p = true
      · have := List.all_eq_true.1 h1 k hk
        rw [samePath_iff.1 e, hp] at this
        simp only [Bool.not_true, Bool.false_or] at this
        simp [this, e]
      · simp [e]
    clear h1 h2 h2' hp
    induction l with
    | nil => rfl
    | cons k r ih =>
      simp only [List.find?_cons]
      rw [this k (by simp), ih fun k hk => this k (by simp [hk])]
  · obtain ⟨m, hm, e⟩ := has_iff.1 hp
    have := h2' m hm
    rw [e] at this
    simp only [Bool.and_eq_true, Bool.or_eq_true, List.tail_cons] at this
    exact this.1.imp samePath_iff.1 id
  · have := h2' m hm
    rw [Bool.and_eq_true] at this
    exact List.all_eq_true.1 this.2 c hc

theorem filter_has {P : Module → Bool} (h : selfReliant l P (l.filter P) = true) {m : Module} (hm : m ∈ l)
    (hn : m ∉ l.filter P) : Library.has (l.filter P) m.path = false := by
  simp only [selfReliant, Bool.and_eq_true] at h
  have := List.all_eq_true.1 h.1 m hm
  cases hh : Library.has (l.filter P) m.path with
  | false => rfl
  | true =>
    rw [hh] at this
    simp only [Bool.not_true, Bool.false_or] at this
    exact absurd (List.mem_filter.2 ⟨hm, this⟩) hn

/-- All modules that are imported are of the library. -/
def OfLibrary (l : Library) (s : State) : Prop := ∀ e ∈ s, l.has e.1 = true

def Keeping (l : Library) (o : Out) : Prop := ∀ s b, o = some (s, b) → OfLibrary l s

theorem change_of {p : Path} {g : Space → Space} : ∀ {s : State}, OfLibrary l s → OfLibrary l (s.change p g)
  | [], h => h
  | (q, sp) :: r, h => by
    unfold State.change
    cases samePath q p with
    | true =>
      intro e he
      rcases List.mem_cons.1 he with he | he
      · rw [he]; exact h (q, sp) (by simp)
      · exact h e (by simp [he])
    | false =>
      intro e he
      rcases List.mem_cons.1 he with he | he
      · rw [he]; exact h (q, sp) (by simp)
      · exact change_of (s := r) (fun e he => h e (by simp [he])) e he

theorem keeping_some {s : State} {b : Bool} (h : OfLibrary l s) : Keeping l (some (s, b)) := by
  intro s' b' e
  cases e
  exact h

theorem keeping_then {o : Out} {k : State → Out} (h : Keeping l o) (hk : ∀ s, OfLibrary l s → Keeping l (k s)) :
    Keeping l (o.andThen k) := by
  cases o with
  | none => intro s b e; cases e
  | some r =>
    obtain ⟨s, b⟩ := r
    cases b
    · exact keeping_some (h s false rfl)
    · exact hk s (h s true rfl)

theorem keeping_each {α : Type} {f : α → State → Out} (hf : ∀ a s, OfLibrary l s → Keeping l (f a s)) :
    ∀ (L : List α) (s : State), OfLibrary l s → Keeping l (each f L s)
  | [], _, h => keeping_some h
  | a :: L, s, h => keeping_then (hf a s h) fun s h => keeping_each hf L s h

theorem keeping_ensure {ld : Path → State → Out} (hld : ∀ p s, OfLibrary l s → Keeping l (ld p s)) (q : Path) (n : Name)
    (s : State) (h : OfLibrary l s) : Keeping l (ensure l ld q n s) := by
  unfold ensure
  split
  · exact keeping_some h
  · split
    · exact hld _ _ h
    · exact keeping_some h

theorem keeping_take (m p : Path) (n k : Name) (s : State) (h : OfLibrary l s) : Keeping l (take m p n k s) := by
  unfold take
  split
  · exact keeping_some h
  · exact keeping_some (change_of h)

theorem keeping_exec {ld : Path → State → Out} (hld : ∀ p s, OfLibrary l s → Keeping l (ld p s)) (m : Module) (c : Stmt)
    (s : State) (h : OfLibrary l s) : Keeping l (exec l ld m c s) := by
  cases c with
  | bind n => exact keeping_some (change_of h)
  | all ns => exact keeping_some (change_of h)
  | use r => exact keeping_some h
  | imp pl p as =>
    refine keeping_then (keeping_each hld _ _ h) fun s h => ?_
    cases as <;> exact keeping_some (change_of h)
  | frm pl p ns =>
    exact keeping_then (keeping_each hld _ _ h) fun s h =>
      keeping_then (keeping_each (fun e s h => keeping_ensure hld _ _ s h) _ _ h) fun s h =>
        keeping_each (fun e s h => keeping_take _ _ _ _ s h) _ _ h
  | star pl p =>
    refine keeping_then (keeping_each hld _ _ h) fun s h => ?_
    unfold starFrom
    split
    · exact keeping_some h
    · split
      · exact keeping_then (keeping_each (fun e s h => keeping_ensure hld _ _ s h) _ _ h) fun s h =>
          keeping_each (fun e s h => keeping_take _ _ _ _ s h) _ _ h
      · exact keeping_some h
      · exact keeping_some (change_of h)

theorem keeping_load : ∀ (f : Nat) (p : Path) (s : State), OfLibrary l s → Keeping l (load l f p s)
  | 0, _, _, _ => fun _ _ e => by cases e
  | f + 1, p, s, h => by
    unfold load
    split
    · exact keeping_some h
    · split
      · exact keeping_some h
      · split
        · exact keeping_some h
        · rename_i m hm
          have hp : OfLibrary l ((p, []) :: s) := by
            intro e he
            rcases List.mem_cons.1 he with he | he
            · rw [he]; unfold Library.has; rw [hm]; rfl
            · exact h e he
          have key := keeping_each (fun c s h => keeping_exec (keeping_load f) m c s h) m.body _ hp
          split
          · intro _ _ e; cases e
          · rename_i s' e
            exact keeping_some fun x hx => key s' false e x (List.mem_filter.1 hx).1
          · rename_i s' e
            exact keeping_some (change_of (key s' true e))

theorem space_of {p : Path} : ∀ {s : State}, OfLibrary l s → l.has p = false → s.space p = none
  | [], _, _ => rfl
  | (q, sp) :: r, h, hp => by
    unfold State.space
    cases e : samePath q p with
    | true =>
      have := h (q, sp) (by simp)
      rw [samePath_iff.1 e, hp] at this
      cases this
    | false => exact space_of (s := r) (fun e he => h e (by simp [he])) hp

theorem not_there {p : Path} (hp : l.has p = false) (hne : p ≠ []) (f : Nat) {s s' : State} (h : OfLibrary l s) :
    each (load l f) (chain p) s ≠ some (s', true) := by
  intro e
  cases p with
  | nil => exact hne rfl
  | cons n q =>
    simp only [chain] at e
    rw [each_append] at e
    have key := keeping_each (keeping_load f) (chain q) s h
    cases hq : each (load l f) (chain q) s with
    | none => rw [hq] at e; cases e
    | some r =>
      obtain ⟨s1, b⟩ := r
      rw [hq] at e
      cases b with
      | false => cases e
      | true =>
        have h1 := space_of (key s1 true hq) hp
        simp only [Out.andThen, each] at e
        cases f with
        | zero => simp [load] at e
        | succ f =>
          have hn : l.find (n :: q) = none := by
            unfold Library.has at hp
            simpa using hp
          unfold load at e
          rw [h1, hn] at e
          simp only [ite_self] at e
          cases e

end Bglib.Import
