import Verif.Lemmas.ImportRegion
/-
Importing modules of a region does the same in every state as in the states of the region, and importing
other modules leads from one of these to another.
-/
namespace Bglib.Import

theorem samePath_iff : ∀ {p q : Path}, samePath p q = true ↔ p = q
  | [], [] => by simp [samePath]
  | [], _ :: _ => by simp [samePath]
  | _ :: _, [] => by simp [samePath]
  | a :: p, b :: q => by
    have h := @samePath_iff p q
    cases hab : Nat.beq a b with
    | true =>
      have := Nat.eq_of_beq_eq_true hab
      simp [samePath, h, this]
    | false =>
      have : a ≠ b := Nat.ne_of_beq_eq_false hab
      simp [samePath, hab, this]

theorem samePath_self (p : Path) : samePath p p = true := samePath_iff.2 rfl

theorem samePath_ne {p q : Path} (h : p ≠ q) : samePath p q = false := by
  cases e : samePath p q with
  | false => rfl
  | true => exact absurd (samePath_iff.1 e) h

theorem mem_iff {R : List Path} {p : Path} : mem R p = true ↔ p ∈ R := by
  simp only [mem, List.any_eq_true]
  constructor
  · rintro ⟨q, hq, e⟩; rwa [← samePath_iff.1 e]
  · intro h; exact ⟨p, h, samePath_self p⟩

theorem look_cons (n k : Name) (v : Val) (r : Space) :
    look n ((k, v) :: r) = if k = n then some v else look n r := by
  by_cases h : k = n
  · subst h; simp [look]
  · have : Nat.beq k n = false := by
      cases e : Nat.beq k n with
      | false => rfl
      | true => exact absurd (Nat.eq_of_beq_eq_true e) h
    simp [look, this, h]

theorem look_append (n : Name) (a b : Space) : look n (a ++ b) = (look n a).or (look n b) := by
  induction a with
  | nil => simp [look]
  | cons e a ih =>
    obtain ⟨k, v⟩ := e
    simp only [List.cons_append, look_cons, ih]
    split <;> simp

theorem look_filter (n : Name) (f : Name → Bool) (a : Space) :
    look n (a.filter fun e => f e.1) = if f n then look n a else none := by
  induction a with
  | nil => simp [look]
  | cons e a ih =>
    obtain ⟨k, v⟩ := e
    simp only [List.filter_cons, look_cons]
    by_cases h : k = n
    · subst h
      cases hf : f k <;> simp [hf, look_cons, ih]
    · cases hf : f k <;> simp [look_cons, ih, h]

theorem space_cons (q p : Path) (sp : Space) (s : State) :
    State.space q ((p, sp) :: s) = if p = q then some sp else s.space q := by
  by_cases h : p = q
  · subst h; simp [State.space, samePath_self]
  · simp [State.space, samePath_ne h, h]

theorem space_change (q p : Path) (f : Space → Space) (s : State) :
    (s.change p f).space q = if p = q then (s.space q).map f else s.space q := by
  induction s with
  | nil => simp [State.change, State.space]
  | cons e s ih =>
    obtain ⟨k, sp⟩ := e
    by_cases h : k = p
    · subst h
      simp only [State.change, samePath_self, cond_true, space_cons]
      split <;> simp_all
    · simp only [State.change, samePath_ne h, cond_false, space_cons, ih]
      by_cases hk : k = q
      · subst hk; simp [Ne.symm h]
      · simp [hk]

theorem space_drop (q p : Path) (s : State) :
    (s.drop p).space q = if p = q then none else s.space q := by
  induction s with
  | nil => simp [State.drop, State.space]
  | cons e s ih =>
    obtain ⟨k, sp⟩ := e
    by_cases h : k = p
    · subst h
      have : State.drop ((k, sp) :: s) k = State.drop s k := by simp [State.drop, samePath_self]
      rw [this, ih, space_cons]
      split <;> rfl
    · have : State.drop ((k, sp) :: s) p = (k, sp) :: State.drop s p := by simp [State.drop, samePath_ne h]
      rw [this, space_cons, ih, space_cons]
      by_cases hk : k = q
      · subst hk; simp [Ne.symm h]
      · simp [hk]

/-! ### Seeing a state from a region -/

/-- The module `n` of `p` is in the library but not in `R`. -/
def Hidden (l : Library) (R : List Path) (p : Path) (n : Name) : Prop := l.has (n :: p) = true ∧ n :: p ∉ R

/-- The spaces are the same but for modules outside of the region, which are seen only in the first. -/
def SeesSpace (l : Library) (R : List Path) (p : Path) (a b : Space) : Prop :=
  ∀ n, look n a = look n b ∨ (look n b = none ∧ Hidden l R p n ∧ look n a = some (.lib (n :: p)))

/-- Modules are modules of the region. -/
def Inside (R : List Path) : Val → Prop
  | .lib p => p ∈ R
  | _ => True

/-- From the region `R` the states look alike; the second has only modules of the region. -/
structure Sees (l : Library) (R : List Path) (s t : State) : Prop where
  view : ∀ p ∈ R, (s.space p = none ∧ t.space p = none) ∨
    ∃ a b, s.space p = some a ∧ t.space p = some b ∧ SeesSpace l R p a b
  inner : ∀ p ∈ R, ∀ b, t.space p = some b → ∀ n v, look n b = some v → Inside R v

/-- The outcomes look alike. -/
def SeesOut (l : Library) (R : List Path) : Out → Out → Prop
  | none, none => True
  | some (s, b), some (t, c) => b = c ∧ Sees l R s t
  | _, _ => False

variable {l : Library} {R : List Path}

theorem Sees.change {s t : State} (h : Sees l R s t) (p : Path) (f g : Space → Space)
    (hf : p ∈ R → ∀ a b, s.space p = some a → t.space p = some b → SeesSpace l R p a b →
      SeesSpace l R p (f a) (g b) ∧ ∀ n v, look n (g b) = some v → Inside R v) :
    Sees l R (s.change p f) (t.change p g) := by
  refine ⟨fun q hq => ?_, fun q hq b hb => ?_⟩
  · simp only [space_change]
    by_cases e : p = q
    · subst e
      rcases h.view p hq with ⟨h1, h2⟩ | ⟨a, b, h1, h2, h3⟩
      · left; simp [h1, h2]
      · right
        exact ⟨f a, g b, by simp [h1], by simp [h2], (hf hq a b h1 h2 h3).1⟩
    · simpa [e] using h.view q hq
  · rw [space_change] at hb
    by_cases e : p = q
    · subst e
      rcases h.view p hq with ⟨h1, h2⟩ | ⟨a, b', h1, h2, h3⟩
      · simp [h2] at hb
      · rw [if_pos rfl, h2] at hb
        cases Option.some.inj hb
        exact (hf hq a b' h1 h2 h3).2
    · rw [if_neg e] at hb
      exact h.inner q hq b hb

theorem Sees.set {s t : State} (h : Sees l R s t) (p : Path) (n : Name) (v : Val) (hv : Inside R v) :
    Sees l R (s.set p n v) (t.set p n v) := by
  refine h.change p _ _ fun hp a b _ hb hab => ⟨fun k => ?_, fun k w hw => ?_⟩
  · simp only [look_cons]
    by_cases e : n = k
    · simp [e]
    · simpa [e] using hab k
  · simp only [look_cons] at hw
    by_cases e : n = k
    · rw [if_pos e] at hw; cases Option.some.inj hw; exact hv
    · rw [if_neg e] at hw; exact h.inner p hp b hb k w hw

theorem Sees.drop {s t : State} (h : Sees l R s t) (p : Path) : Sees l R (s.drop p) (t.drop p) := by
  refine ⟨fun q hq => ?_, fun q hq b hb => ?_⟩
  · simp only [space_drop]
    by_cases e : p = q
    · left; simp [e]
    · simpa [e] using h.view q hq
  · rw [space_drop] at hb
    by_cases e : p = q
    · rw [if_pos e] at hb; cases hb
    · rw [if_neg e] at hb; exact h.inner q hq b hb

theorem Sees.push {s t : State} (h : Sees l R s t) (p : Path) : Sees l R ((p, []) :: s) ((p, []) :: t) := by
  refine ⟨fun q hq => ?_, fun q hq b hb => ?_⟩
  · simp only [space_cons]
    by_cases e : p = q
    · right; exact ⟨[], [], by simp [e], by simp [e], fun n => .inl rfl⟩
    · simpa [e] using h.view q hq
  · rw [space_cons] at hb
    by_cases e : p = q
    · rw [if_pos e] at hb; cases Option.some.inj hb; intro n v hv; cases hv
    · rw [if_neg e] at hb; exact h.inner q hq b hb

theorem Sees.isSome {s t : State} (h : Sees l R s t) {p : Path} (hp : p ∈ R) :
    (s.space p).isSome = (t.space p).isSome := by
  rcases h.view p hp with ⟨h1, h2⟩ | ⟨a, b, h1, h2, _⟩ <;> simp [h1, h2]

theorem Sees.entry {s t : State} (h : Sees l R s t) {p : Path} (hp : p ∈ R) (n : Name) (hn : ¬ Hidden l R p n) :
    s.entry p n = t.entry p n := by
  rcases h.view p hp with ⟨h1, h2⟩ | ⟨a, b, h1, h2, h3⟩
  · simp [State.entry, h1, h2]
  · rcases h3 n with e | ⟨_, e, _⟩
    · simp [State.entry, h1, h2, e]
    · exact absurd e hn

theorem Sees.value {s t : State} (h : Sees l R s t) {p : Path} (hp : p ∈ R) {n : Name} {v : Val}
    (hv : t.entry p n = some v) : Inside R v := by
  unfold State.entry at hv
  cases e : t.space p with
  | none => rw [e] at hv; cases hv
  | some b => rw [e] at hv; exact h.inner p hp b e n v hv

theorem has_iff {l : Library} {p : Path} : l.has p = true ↔ ∃ k ∈ l, k.path = p := by
  unfold Library.has Library.find
  constructor
  · intro h
    cases e : List.find? (fun m => samePath m.path p) l with
    | none => rw [e] at h; cases h
    | some m =>
      have h1 := List.find?_some e
      exact ⟨m, List.mem_of_find?_eq_some e, samePath_iff.1 (by simpa using h1)⟩
  · rintro ⟨k, hk, rfl⟩
    rw [List.find?_isSome]
    exact ⟨k, hk, samePath_self _⟩

theorem find_path {l : Library} {p : Path} {m : Module} (h : l.find p = some m) : m.path = p := by
  have h1 := List.find?_some h
  exact samePath_iff.1 (by simpa using h1)

theorem avoids_spec {ns : List Name} (h : avoids l R ns = true) {p : Path} (hp : p ∈ R) {n : Name} (hn : n ∈ ns) :
    ¬ Hidden l R p n := by
  rintro ⟨h1, h2⟩
  obtain ⟨k, hk, e⟩ := has_iff.1 h1
  have h3 := List.all_eq_true.1 h k hk
  have e1 : k.path.tail = p := by rw [e]; rfl
  have e2 : k.path.headD 0 = n := by rw [e]; rfl
  rw [e1, e2, e, mem_iff.2 hp] at h3
  have h4 : mem R (n :: p) = false := by
    cases e : mem R (n :: p) with
    | false => rfl
    | true => exact absurd (mem_iff.1 e) h2
  have : (ns.any fun m => decide (m = n)) = true := List.any_eq_true.2 ⟨n, hn, by simp⟩
  rw [h4, this] at h3
  cases h3

theorem attributes_sees {s t : State} (h : Sees l R s t) : ∀ (r : List Name) (v : Val), Inside R v →
    avoids l R r = true → attributes s v r = attributes t v r
  | [], v, _, _ => by cases v <;> rfl
  | n :: r, .thing, _, _ => rfl
  | n :: r, .names _, _, _ => rfl
  | n :: r, .lib p, hv, ha => by
    have e := h.entry (p := p) hv n (avoids_spec ha hv List.mem_cons_self)
    have ha' : avoids l R r = true := by
      refine List.all_eq_true.2 fun k hk => ?_
      have := List.all_eq_true.1 ha k hk
      simp only [List.any_cons, Bool.not_or, Bool.or_eq_true, Bool.and_eq_true] at this ⊢
      rcases this with h1 | h1
      · exact .inl h1
      · exact .inr h1.2
    simp only [attributes, e]
    cases ht : t.entry p n with
    | none => rfl
    | some w => exact attributes_sees h r w (h.value hv ht) ha'

theorem avoids_tail {n : Name} {r : List Name} (ha : avoids l R (n :: r) = true) : avoids l R r = true := by
  refine List.all_eq_true.2 fun k hk => ?_
  have := List.all_eq_true.1 ha k hk
  simp only [List.any_cons, Bool.not_or, Bool.or_eq_true, Bool.and_eq_true] at this ⊢
  rcases this with h1 | h1
  · exact .inl h1
  · exact .inr h1.2

theorem resolve_sees {s t : State} (h : Sees l R s t) {m : Path} (hm : m ∈ R) (r : List Name)
    (ha : avoids l R r = true) : resolve s m r = resolve t m r := by
  cases r with
  | nil => rfl
  | cons n r =>
    have e := h.entry hm n (avoids_spec ha hm List.mem_cons_self)
    simp only [resolve, e]
    cases ht : t.entry m n with
    | none => rfl
    | some w => exact attributes_sees h r w (h.value hm ht) (avoids_tail ha)

/-! ### Modules of the region -/

theorem SeesOut.andThen {o o' : Out} {k k' : State → Out} (h : SeesOut l R o o')
    (hk : ∀ s t, Sees l R s t → SeesOut l R (k s) (k' t)) : SeesOut l R (o.andThen k) (o'.andThen k') := by
  match o, o', h with
  | none, none, _ => trivial
  | some (s, true), some (t, true), h => exact hk s t h.2
  | some (s, false), some (t, false), h => exact h
  | some (s, true), some (t, false), h => cases h.1
  | some (s, false), some (t, true), h => cases h.1

theorem SeesOut.each {α : Type} {f g : α → State → Out} : ∀ (L : List α) (s t : State), Sees l R s t →
    (∀ a ∈ L, ∀ s t, Sees l R s t → SeesOut l R (f a s) (g a t)) → SeesOut l R (each f L s) (each g L t)
  | [], _, _, h, _ => ⟨rfl, h⟩
  | a :: L, s, t, h, hf => by
    refine (hf a List.mem_cons_self s t h).andThen fun s' t' h' => ?_
    exact SeesOut.each L s' t' h' fun b hb => hf b (List.mem_cons_of_mem _ hb)

theorem allIn_spec {ps : List Path} (h : allIn R ps = true) {p : Path} (hp : p ∈ ps) : p ∈ R :=
  mem_iff.1 (List.all_eq_true.1 h p hp)

theorem ensure_sees {ld : Path → State → Out} (hld : ∀ p ∈ R, ∀ s t, Sees l R s t → SeesOut l R (ld p s) (ld p t))
    {q : Path} (hq : q ∈ R) {n : Name} (hn : ¬ Hidden l R q n) {s t : State} (h : Sees l R s t) :
    SeesOut l R (ensure l ld q n s) (ensure l ld q n t) := by
  simp only [ensure, h.entry hq n hn]
  split
  · exact ⟨rfl, h⟩
  · split
    · rename_i hh
      refine hld _ ?_ s t h
      exact Classical.byContradiction fun hc => hn ⟨hh, hc⟩
    · exact ⟨rfl, h⟩

theorem take_sees {m q : Path} (hq : q ∈ R) {n : Name} (hn : ¬ Hidden l R q n) (k : Name) {s t : State}
    (h : Sees l R s t) : SeesOut l R (take m q n k s) (take m q n k t) := by
  simp only [take, h.entry hq n hn]
  cases e : t.entry q n with
  | none => exact ⟨rfl, h⟩
  | some v => exact ⟨rfl, h.set m k v (h.value hq e)⟩

theorem starFrom_sees {ld : Path → State → Out}
    (hld : ∀ p ∈ R, ∀ s t, Sees l R s t → SeesOut l R (ld p s) (ld p t))
    {m q : Path} (hq : q ∈ R) (hn : ∀ n, ¬ Hidden l R q n) {s t : State} (h : Sees l R s t) :
    SeesOut l R (starFrom l ld m q s) (starFrom l ld m q t) := by
  rcases h.view q hq with ⟨h1, h2⟩ | ⟨a, b, h1, h2, h3⟩
  · simp only [starFrom, h1, h2]; exact ⟨rfl, h⟩
  · have e : ∀ n, look n a = look n b := fun n => by
      rcases h3 n with e | ⟨_, e, _⟩
      · exact e
      · exact absurd e (hn n)
    simp only [starFrom, h1, h2, e]
    cases look n!"__all__" b with
    | none =>
      refine ⟨rfl, h.change m _ _ fun hm a' b' _ hb' hab => ⟨fun k => ?_, fun k w hw => ?_⟩⟩
      · simp only [look_append, look_filter, e]
        rcases hab k with e' | ⟨e1, e2, e3⟩
        · left; rw [e']
        · rw [e1, e3]
          cases (if isPublic k then look k b else none) with
          | none => exact .inr ⟨rfl, e2, rfl⟩
          | some w => exact .inl rfl
      · simp only [look_append, look_filter] at hw
        by_cases hp : isPublic k
        · rw [if_pos hp] at hw
          cases hk : look k b with
          | none => rw [hk] at hw; exact h.inner m hm b' hb' k w (by simpa using hw)
          | some w' =>
            rw [hk] at hw
            have : w' = w := by simpa using hw
            rw [← this]
            exact h.inner q hq b h2 k w' hk
        · rw [if_neg hp] at hw
          exact h.inner m hm b' hb' k w (by simpa using hw)
    | some v =>
      cases v with
      | lib p => exact ⟨rfl, h⟩
      | thing => exact ⟨rfl, h⟩
      | names ns =>
        refine (SeesOut.each ns s t h fun n _ s t h => ensure_sees hld hq (hn n) h).andThen fun s t h => ?_
        exact SeesOut.each ns s t h fun n _ s t h => take_sees hq (hn n) n h

theorem exec_sees {ld : Path → State → Out}
    (hld : ∀ p ∈ R, ∀ s t, Sees l R s t → SeesOut l R (ld p s) (ld p t))
    {m : Module} (hm : m.path ∈ R) (c : Stmt) (hc : stmtIn l R c = true) {s t : State} (h : Sees l R s t) :
    SeesOut l R (exec l ld m c s) (exec l ld m c t) := by
  cases c with
  | bind n => exact ⟨rfl, h.set _ _ _ trivial⟩
  | all ns => exact ⟨rfl, h.set _ _ _ trivial⟩
  | use r => exact ⟨by rw [resolve_sees h hm r hc], h⟩
  | imp pl p as =>
    simp only [stmtIn, Bool.and_eq_true] at hc
    obtain ⟨⟨h1, h2⟩, h3⟩ := hc
    simp only [exec]
    refine (SeesOut.each _ s t h fun q hq s t h => hld q (allIn_spec h1 hq) s t h).andThen fun s t h => ?_
    cases as with
    | none => exact ⟨rfl, h.set _ _ _ (mem_iff.1 h3)⟩
    | some k => exact ⟨rfl, h.set _ _ _ (mem_iff.1 h2)⟩
  | frm pl p ns =>
    simp only [stmtIn, Bool.and_eq_true] at hc
    obtain ⟨⟨h1, h2⟩, h3⟩ := hc
    have hq := mem_iff.1 h2
    have hn : ∀ e ∈ ns, ¬ Hidden l R (p.reverse ++ pl) e.1 := fun e he =>
      avoids_spec h3 hq (List.mem_map.2 ⟨e, he, rfl⟩)
    simp only [exec]
    refine (SeesOut.each _ s t h fun q hq s t h => hld q (allIn_spec h1 hq) s t h).andThen fun s t h => ?_
    refine (SeesOut.each ns s t h fun e he s t h => ensure_sees hld hq (hn e he) h).andThen fun s t h => ?_
    exact SeesOut.each ns s t h fun e he s t h => take_sees hq (hn e he) e.2 h
  | star pl p =>
    simp only [stmtIn, Bool.and_eq_true] at hc
    obtain ⟨⟨h1, h2⟩, h3⟩ := hc
    have hq := mem_iff.1 h2
    have hn : ∀ n, ¬ Hidden l R (p.reverse ++ pl) n := by
      rintro n ⟨e1, e2⟩
      obtain ⟨k, hk, e⟩ := has_iff.1 e1
      have h4 := List.all_eq_true.1 h3 k hk
      have e3 : k.path.tail = p.reverse ++ pl := by rw [e]; rfl
      rw [e3, samePath_self] at h4
      exact e2 (e ▸ mem_iff.1 (by simpa using h4))
    simp only [exec]
    refine (SeesOut.each _ s t h fun q hq s t h => hld q (allIn_spec h1 hq) s t h).andThen fun s t h => ?_
    exact starFrom_sees hld hq hn h

theorem load_sees (hR : closed l R = true) : ∀ (f : Nat) (p : Path), p ∈ R → ∀ (s t : State), Sees l R s t →
    SeesOut l R (load l f p s) (load l f p t)
  | 0, _, _, _, _, _ => trivial
  | f + 1, p, hp, s, t, h => by
    have hc := List.all_eq_true.1 hR p hp
    simp only [Bool.and_eq_true, Bool.or_eq_true, decide_eq_true_eq] at hc
    obtain ⟨hpar, hc⟩ := hc
    simp only [load]
    rcases h.view p hp with ⟨h1, h2⟩ | ⟨a, b, h1, h2, _⟩
    · simp only [h1, h2]
      have hpar' : (p.tail ≠ [] ∧ s.space p.tail = none) ↔ (p.tail ≠ [] ∧ t.space p.tail = none) := by
        rcases hpar with e | e
        · simp [e]
        · have := h.isSome (mem_iff.1 e)
          constructor <;> rintro ⟨g1, g2⟩ <;> refine ⟨g1, ?_⟩ <;> simp_all
      by_cases g : p.tail ≠ [] ∧ t.space p.tail = none
      · rw [if_pos g, if_pos (hpar'.2 g)]; exact ⟨rfl, h⟩
      · rw [if_neg g, if_neg (fun g' => g (hpar'.1 g'))]
        cases e : l.find p with
        | none => exact ⟨rfl, h⟩
        | some m =>
          rw [e] at hc
          have hm : m.path ∈ R := by rw [find_path e]; exact hp
          have key := SeesOut.each (l := l) (R := R) (f := exec l (load l f) m) (g := exec l (load l f) m) m.body _ _
            (h.push p) fun c hc' s t h => exec_sees (fun p hp s t h => load_sees hR f p hp s t h) hm c
              (List.all_eq_true.1 hc c hc') h
          simp only
          revert key
          cases each (exec l (load l f) m) m.body ((p, []) :: s) <;>
            cases each (exec l (load l f) m) m.body ((p, []) :: t)
          · intro _; trivial
          · intro k; exact k.elim
          · intro k; exact k.elim
          · rename_i x y
            obtain ⟨s', b⟩ := x
            obtain ⟨t', c⟩ := y
            rintro ⟨rfl, k⟩
            cases b
            · exact ⟨rfl, k.drop p⟩
            · exact ⟨rfl, k.set _ _ _ hp⟩
    · simp only [h1, h2]; exact ⟨rfl, h⟩

theorem importing_sees (hR : closed l R = true) {p : Path} (hp : allIn R (chain p) = true) {s t : State}
    (h : Sees l R s t) : SeesOut l R (importing l p s) (importing l p t) :=
  SeesOut.each _ s t h fun q hq s t h => load_sees hR _ q (allIn_spec hp hq) s t h

/-! ### More fuel -/

theorem andThen_mono {o o' : Out} {k k' : State → Out} (h : ∀ r, o = some r → o' = some r)
    (hk : ∀ s r, k s = some r → k' s = some r) {r : State × Bool} (e : o.andThen k = some r) :
    o'.andThen k' = some r := by
  match o, h, e with
  | some (s, true), h, e => rw [h _ rfl]; exact hk s r e
  | some (s, false), h, e => rw [h _ rfl]; exact e

theorem each_mono {α : Type} {f g : α → State → Out} (h : ∀ a s r, f a s = some r → g a s = some r) :
    ∀ (L : List α) (s : State) (r : State × Bool), each f L s = some r → each g L s = some r
  | [], _, _, e => e
  | a :: L, s, _, e => andThen_mono (h a s) (each_mono h L) e

theorem ensure_mono {ld ld' : Path → State → Out} (h : ∀ p s r, ld p s = some r → ld' p s = some r) (q : Path)
    (n : Name) (s : State) (r : State × Bool) (e : ensure l ld q n s = some r) : ensure l ld' q n s = some r := by
  unfold ensure at *
  split at e
  · exact e
  · split at e
    · rename_i h1 h2; rw [if_pos h2]; exact h _ _ _ e
    · rename_i h1 h2; rw [if_neg h2]; exact e

theorem starFrom_mono {ld ld' : Path → State → Out} (h : ∀ p s r, ld p s = some r → ld' p s = some r) (m q : Path)
    (s : State) (r : State × Bool) (e : starFrom l ld m q s = some r) : starFrom l ld' m q s = some r := by
  unfold starFrom at *
  split at e
  · exact e
  · split at e
    · exact andThen_mono (each_mono (ensure_mono h q) _ _) (fun s r e => e) e
    · exact e
    · exact e

theorem exec_mono {ld ld' : Path → State → Out} (h : ∀ p s r, ld p s = some r → ld' p s = some r) (m : Module)
    (c : Stmt) (s : State) (r : State × Bool) (e : exec l ld m c s = some r) : exec l ld' m c s = some r := by
  cases c with
  | bind n => exact e
  | all ns => exact e
  | use r => exact e
  | imp pl p as => exact andThen_mono (each_mono h _ _) (fun _ _ e => e) e
  | frm pl p ns =>
    exact andThen_mono (each_mono h _ _) (fun s r e =>
      andThen_mono (each_mono (fun (a : Name × Name) => ensure_mono h _ a.1) _ _) (fun _ _ e => e) e) e
  | star pl p => exact andThen_mono (each_mono h _ _) (fun s r e => starFrom_mono h _ _ s r e) e

theorem load_mono : ∀ (f : Nat) (p : Path) (s : State) (r : State × Bool), load l f p s = some r →
    load l (f + 1) p s = some r
  | f + 1, p, s, r, e => by
    rw [load] at e ⊢
    cases h1 : s.space p with
    | some a => rw [h1] at e; exact e
    | none =>
      rw [h1] at e
      simp only at e ⊢
      by_cases g : p.tail ≠ [] ∧ s.space p.tail = none
      · rw [if_pos g] at e ⊢; exact e
      · rw [if_neg g] at e ⊢
        cases h2 : l.find p with
        | none => rw [h2] at e; exact e
        | some m =>
          rw [h2] at e
          simp only at e ⊢
          cases h3 : each (exec l (load l f) m) m.body ((p, []) :: s) with
          | none => rw [h3] at e; cases e
          | some x =>
            rw [each_mono (fun c s r => exec_mono (load_mono f) m c s r) _ _ _ h3]
            rw [h3] at e
            exact e

theorem load_le {f g : Nat} (h : f ≤ g) {p : Path} {s : State} {r : State × Bool} (e : load l f p s = some r) :
    load l g p s = some r := by
  induction h with
  | refl => exact e
  | step _ ih => exact load_mono _ _ _ _ ih

/-! ### Modules outside of the region -/

/-- The state looks like one of `T`. -/
def Among (l : Library) (R : List Path) (T : List State) (s : State) : Prop := ∃ t ∈ T, Sees l R s t

/-- So does what comes out. -/
def Stays (l : Library) (R : List Path) (T : List State) (o : Out) : Prop := ∀ s b, o = some (s, b) → Among l R T s

variable {T : List State}

theorem Among.outside {s s' : State} (h : Among l R T s) (e : ∀ q ∈ R, s'.space q = s.space q) : Among l R T s' := by
  obtain ⟨t, ht, hs⟩ := h
  exact ⟨t, ht, ⟨fun q hq => by rw [e q hq]; exact hs.view q hq, hs.inner⟩⟩

theorem Among.change {s : State} (h : Among l R T s) {p : Path} (hp : p ∉ R) (f : Space → Space) :
    Among l R T (s.change p f) :=
  h.outside fun q hq => by
    have : p ≠ q := fun e => hp (e ▸ hq)
    rw [space_change, if_neg this]

theorem Stays.done {s : State} {b : Bool} (h : Among l R T s) : Stays l R T (some (s, b)) := by
  intro s' b' e
  cases Option.some.inj e
  exact h

theorem Stays.andThen {o : Out} {k : State → Out} (h : Stays l R T o)
    (hk : ∀ s, Among l R T s → Stays l R T (k s)) : Stays l R T (o.andThen k) := by
  intro s b e
  match o, h, e with
  | some (s', true), h, e => exact hk s' (h _ _ rfl) s b e
  | some (s', false), h, e =>
    cases Option.some.inj e
    exact h _ _ rfl

theorem Stays.each {α : Type} {f : α → State → Out} (hf : ∀ a s, Among l R T s → Stays l R T (f a s)) :
    ∀ (L : List α) (s : State), Among l R T s → Stays l R T (each f L s)
  | [], _, h => Stays.done h
  | a :: L, s, h => (hf a s h).andThen fun s' h' => Stays.each hf L s' h'

theorem ensure_stays {ld : Path → State → Out} (hld : ∀ p s, Among l R T s → Stays l R T (ld p s)) (q : Path)
    (n : Name) (s : State) (h : Among l R T s) : Stays l R T (ensure l ld q n s) := by
  unfold ensure
  split
  · exact Stays.done h
  · split
    · exact hld _ s h
    · exact Stays.done h

theorem take_stays {m : Path} (hm : m ∉ R) (q : Path) (n k : Name) (s : State) (h : Among l R T s) :
    Stays l R T (take m q n k s) := by
  unfold take
  split
  · exact Stays.done h
  · exact Stays.done (h.change hm _)

theorem starFrom_stays {ld : Path → State → Out} (hld : ∀ p s, Among l R T s → Stays l R T (ld p s)) {m : Path}
    (hm : m ∉ R) (q : Path) (s : State) (h : Among l R T s) : Stays l R T (starFrom l ld m q s) := by
  unfold starFrom
  split
  · exact Stays.done h
  · split
    · exact (Stays.each (ensure_stays hld q) _ s h).andThen fun s h =>
        Stays.each (fun n s h => take_stays hm q n n s h) _ s h
    · exact Stays.done h
    · exact Stays.done (h.change hm _)

theorem exec_stays {ld : Path → State → Out} (hld : ∀ p s, Among l R T s → Stays l R T (ld p s)) {m : Module}
    (hm : m.path ∉ R) (c : Stmt) (s : State) (h : Among l R T s) : Stays l R T (exec l ld m c s) := by
  cases c with
  | bind n => exact Stays.done (h.change hm _)
  | all ns => exact Stays.done (h.change hm _)
  | use r => exact Stays.done h
  | imp pl p as =>
    refine (Stays.each hld _ s h).andThen fun s h => ?_
    cases as with
    | none => exact Stays.done (h.change hm _)
    | some k => exact Stays.done (h.change hm _)
  | frm pl p ns =>
    refine (Stays.each hld _ s h).andThen fun s h => ?_
    refine (Stays.each (fun e s h => ensure_stays hld _ e.1 s h) ns s h).andThen fun s h => ?_
    exact Stays.each (fun e s h => take_stays hm _ e.1 e.2 s h) ns s h
  | star pl p =>
    refine (Stays.each hld _ s h).andThen fun s h => ?_
    exact starFrom_stays hld hm _ s h

theorem sameSpace_spec {a b : Space} (h : sameSpace a b = true) (n : Name) : look n a = look n b := by
  have mem_of : ∀ (a : Space) (n : Name) (v : Val), look n a = some v → ∃ e ∈ a, e.1 = n := by
    intro a
    induction a with
    | nil => intro n v h; cases h
    | cons e a ih =>
      intro n v h
      obtain ⟨k, w⟩ := e
      rw [look_cons] at h
      by_cases hk : k = n
      · exact ⟨(k, w), List.mem_cons_self, hk⟩
      · rw [if_neg hk] at h
        obtain ⟨e, he, hh⟩ := ih n v h
        exact ⟨e, List.mem_cons_of_mem _ he, hh⟩
  simp only [sameSpace, Bool.or_eq_true, decide_eq_true_eq, Bool.and_eq_true] at h
  rcases h with h | ⟨h1, h2⟩
  · rw [h]
  · cases ha : look n a with
    | some v =>
      obtain ⟨e, he, rfl⟩ := mem_of a n v ha
      have := List.all_eq_true.1 h1 e he
      rw [← ha]; simpa using this
    | none =>
      cases hb : look n b with
      | none => rfl
      | some v =>
        obtain ⟨e, he, rfl⟩ := mem_of b n v hb
        have := List.all_eq_true.1 h2 e he
        rw [← ha, ← hb]; simpa using this

theorem Sees.same {s t t' : State} (h : Sees l R s t) (e : sameOn R t t' = true) : Sees l R s t' := by
  simp only [sameOn, Bool.and_eq_true] at e
  have e2 := e.2
  have key : ∀ p ∈ R, (t.space p = none ∧ t'.space p = none) ∨
      ∃ b b', t.space p = some b ∧ t'.space p = some b' ∧ ∀ n, look n b = look n b' := by
    intro p hp
    have := List.all_eq_true.1 e2 p hp
    revert this
    cases t.space p <;> cases t'.space p
    · intro _; exact .inl ⟨rfl, rfl⟩
    · intro h; cases h
    · intro h; cases h
    · intro h; exact .inr ⟨_, _, rfl, rfl, sameSpace_spec h⟩
  refine ⟨fun p hp => ?_, fun p hp b' hb' n v hv => ?_⟩
  · rcases h.view p hp with ⟨h1, h2⟩ | ⟨a, b, h1, h2, h3⟩
    · rcases key p hp with ⟨_, k2⟩ | ⟨b, b', k1, _, _⟩
      · exact .inl ⟨h1, k2⟩
      · rw [h2] at k1; cases k1
    · rcases key p hp with ⟨k1, _⟩ | ⟨c, b', k1, k2, k3⟩
      · rw [h2] at k1; cases k1
      · rw [h2] at k1
        cases Option.some.inj k1
        exact .inr ⟨a, b', h1, k2, fun n => by rw [← k3 n]; exact h3 n⟩
  · rcases key p hp with ⟨_, k2⟩ | ⟨b, c, k1, k2, k3⟩
    · rw [k2] at hb'; cases hb'
    · rw [k2] at hb'
      cases Option.some.inj hb'
      exact h.inner p hp b k1 n v (by rw [k3 n]; exact hv)

theorem load_stays (hR : closed l R = true) (hT : settled l R T = true) : ∀ (f : Nat), f ≤ l.length + 1 →
    ∀ (p : Path) (s : State), Among l R T s → Stays l R T (load l f p s)
  | 0, _, _, _, _ => fun _ _ e => by cases e
  | f + 1, hf, p, s, h => by
    simp only [settled, Bool.and_eq_true] at hT
    have hT2 := hT.2
    by_cases hp : p ∈ R
    · obtain ⟨t, ht, hs⟩ := h
      intro s' b e
      have k := load_sees hR (f + 1) p hp s t hs
      rw [e] at k
      cases hl : load l (f + 1) p t with
      | none => rw [hl] at k; exact k.elim
      | some x =>
        obtain ⟨t', c⟩ := x
        rw [hl] at k
        have h1 := List.all_eq_true.1 hT2 t ht
        simp only [Bool.and_eq_true] at h1
        have h2 := List.all_eq_true.1 h1.1 p hp
        rw [load_le hf hl] at h2
        simp only [Bool.or_eq_true] at h2
        rcases h2 with h2 | h2
        · have : t' = t := by
            rw [load] at hl
            cases hsp : t.space p with
            | none => rw [hsp] at h2; cases h2
            | some a => rw [hsp] at hl; cases Option.some.inj hl; rfl
          subst this
          exact ⟨t', ht, k.2⟩
        · obtain ⟨t'', ht'', e''⟩ := List.any_eq_true.1 h2
          exact ⟨t'', ht'', k.2.same e''⟩
    · rw [load]
      cases h1 : s.space p with
      | some a => exact Stays.done h
      | none =>
        simp only
        by_cases g : p.tail ≠ [] ∧ s.space p.tail = none
        · rw [if_pos g]; exact Stays.done h
        · rw [if_neg g]
          cases h2 : l.find p with
          | none => exact Stays.done h
          | some m =>
            have hm : m.path ∉ R := by rw [find_path h2]; exact hp
            have hpush : Among l R T ((p, []) :: s) := h.outside fun q hq => by
              have : p ≠ q := fun e => hp (e ▸ hq)
              rw [space_cons, if_neg this]
            have key := Stays.each (fun c s h => exec_stays (m := m)
              (load_stays hR (by simp only [settled, Bool.and_eq_true]; exact hT) f (by omega)) hm c s h) m.body _ hpush
            simp only
            cases h3 : each (exec l (load l f) m) m.body ((p, []) :: s) with
            | none => exact fun _ _ e => by cases e
            | some x =>
              obtain ⟨s', b⟩ := x
              have hs' := key s' b h3
              cases b
              · refine Stays.done (hs'.outside fun q hq => ?_)
                have : p ≠ q := fun e => hp (e ▸ hq)
                rw [space_drop, if_neg this]
              · refine Stays.done ?_
                by_cases ht : p.tail ∈ R
                · obtain ⟨t, htT, hs⟩ := hs'
                  refine ⟨t, htT, ⟨fun q hq => ?_, hs.inner⟩⟩
                  simp only [State.set, space_change]
                  by_cases hq' : p.tail = q
                  · subst hq'
                    rw [if_pos rfl]
                    rcases hs.view _ hq with ⟨k1, k2⟩ | ⟨a, b, k1, k2, k3⟩
                    · left; simp [k1, k2]
                    · right
                      refine ⟨_, b, by rw [k1]; rfl, k2, fun n => ?_⟩
                      rw [look_cons]
                      by_cases hn : p.headD 0 = n
                      · subst hn
                        rw [if_pos rfl]
                        have h5 := List.all_eq_true.1 hT2 t htT
                        simp only [Bool.and_eq_true] at h5
                        have hml : m ∈ l := List.mem_of_find?_eq_some h2
                        have h6 := List.all_eq_true.1 h5.2 m hml
                        rw [find_path h2] at h6
                        simp only [Bool.or_eq_true, decide_eq_true_eq] at h6
                        rcases h6 with h6 | h6
                        · exact absurd (mem_iff.1 h6) hp
                        · have h7 : look (p.headD 0) b = none := by
                            simpa [State.entry, k2] using h6
                          cases p with
                          | nil => exact absurd ht hp
                          | cons x p' =>
                            refine .inr ⟨h7, ⟨has_iff.2 ⟨m, hml, find_path h2⟩, hp⟩, rfl⟩
                      · rw [if_neg hn]; exact k3 n
                  · rw [if_neg hq']; exact hs.view q hq
                · exact hs'.change ht _

theorem importing_stays (hR : closed l R = true) (hT : settled l R T = true) (p : Path) (s : State)
    (h : Among l R T s) : Stays l R T (importing l p s) :=
  Stays.each (load_stays hR hT _ (Nat.le_refl _)) _ s h

theorem among_nil (hT : settled l R T = true) : Among l R T [] := by
  simp only [settled, Bool.and_eq_true] at hT
  obtain ⟨t, ht, e⟩ := List.any_eq_true.1 hT.1
  have : t = [] := by simpa using e
  subst this
  exact ⟨[], ht, ⟨fun p _ => .inl ⟨rfl, rfl⟩, fun p _ b h => by cases h⟩⟩

end Bglib.Import
