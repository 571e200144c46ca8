import Verif.Model.Pattern
/-
What matches of patterns look like.
-/
namespace Bglib

/-- The characters a pattern can read. -/
def Re.chars : Re → Char → Prop
  | .eps, _ | .bol, _ | .eol, _ => False
  | .set s, c => s.mem c = true
  | .seq a b, c | .alt a b, c => a.chars c ∨ b.chars c
  | .rep a _ _, c | .group _ a, c => a.chars c

/-- The characters a group can contain. -/
def Re.groupChars : Re → Text → Char → Prop
  | .eps, _, _ | .bol, _, _ | .eol, _, _ | .set _, _, _ => False
  | .seq a b, n, c | .alt a b, n, c => a.groupChars n c ∨ b.groupChars n c
  | .rep a _ _, n, c => a.groupChars n c
  | .group name a, n, c => (name = n ∧ a.chars c) ∨ a.groupChars n c

/-- A match reads `s`, all of it satisfying `ok`, and adds groups satisfying `grp`. -/
def ReadsOn (ok : Char → Prop) (grp : Text → Char → Prop) (p q : Place) : Prop :=
  ∃ s g, p.rest = s ++ q.rest ∧ q.groups = g ++ p.groups ∧ (∀ c ∈ s, ok c) ∧
    ∀ n v, (n, v) ∈ g → ∀ c ∈ v, grp n c

theorem reads_refl {ok grp} (p : Place) : ReadsOn ok grp p p := ⟨[], [], rfl, rfl, by simp, by simp⟩

theorem reads_mono {ok ok' : Char → Prop} {grp grp' : Text → Char → Prop} {p q : Place}
    (h : ReadsOn ok grp p q) (h1 : ∀ c, ok c → ok' c) (h2 : ∀ n c, grp n c → grp' n c) : ReadsOn ok' grp' p q := by
  obtain ⟨s, g, a, b, c, d⟩ := h
  exact ⟨s, g, a, b, fun x hx => h1 x (c x hx), fun n v hv x hx => h2 n x (d n v hv x hx)⟩

theorem reads_trans {ok : Char → Prop} {grp : Text → Char → Prop} {p q r : Place}
    (h : ReadsOn ok grp p q) (h' : ReadsOn ok grp q r) : ReadsOn ok grp p r := by
  obtain ⟨s, g, a, b, c, d⟩ := h
  obtain ⟨s', g', a', b', c', d'⟩ := h'
  refine ⟨s ++ s', g' ++ g, by rw [a, a', List.append_assoc], by rw [b', b, List.append_assoc], ?_, ?_⟩
  · intro x hx
    rcases List.mem_append.1 hx with hx | hx
    · exact c x hx
    · exact c' x hx
  · intro n v hv
    rcases List.mem_append.1 hv with hv | hv
    · exact d' n v hv
    · exact d n v hv

theorem between_eq {p q : Place} {s : Text} (h : p.rest = s ++ q.rest) : between p q = s := by
  unfold between
  rw [h]
  simp

theorem repAll_reads {ok : Char → Prop} {grp : Text → Char → Prop} {f : Place → List Place}
    (hf : ∀ p q, q ∈ f p → ReadsOn ok grp p q) (n min : Nat) (p q : Place) (h : q ∈ repAll f n min p) :
    ReadsOn ok grp p q := by
  induction n generalizing min p with
  | zero =>
    unfold repAll at h
    split at h
    · cases List.mem_singleton.1 h; exact reads_refl _
    · simp at h
  | succ n ih =>
    unfold repAll at h
    rcases List.mem_append.1 h with h | h
    · obtain ⟨r, hr, hq⟩ := List.mem_flatMap.1 h
      exact reads_trans (hf p r (List.mem_filter.1 hr).1) (ih _ r hq)
    · split at h
      · cases List.mem_singleton.1 h; exact reads_refl _
      · simp at h

theorem all_reads (r : Re) (p q : Place) (h : q ∈ r.all p) : ReadsOn r.chars r.groupChars p q := by
  induction r generalizing p q with
  | eps => cases List.mem_singleton.1 h; exact reads_refl _
  | set s =>
    unfold Re.all at h
    split at h
    · simp at h
    · next c r hr =>
      split at h
      · next hc =>
        cases List.mem_singleton.1 h
        exact ⟨[c], [], hr, rfl, by simpa [Re.chars] using hc, by simp⟩
      · simp at h
  | bol =>
    unfold Re.all at h
    split at h
    · cases List.mem_singleton.1 h; exact reads_refl _
    · simp at h
  | eol =>
    unfold Re.all at h
    split at h
    · cases List.mem_singleton.1 h; exact reads_refl _
    · simp at h
  | seq a b iha ihb =>
    obtain ⟨r, hr, hq⟩ := List.mem_flatMap.1 h
    exact reads_trans (reads_mono (iha p r hr) (fun c => Or.inl) (fun n c => Or.inl))
      (reads_mono (ihb r q hq) (fun c => Or.inr) (fun n c => Or.inr))
  | alt a b iha ihb =>
    rcases List.mem_append.1 h with h | h
    · exact reads_mono (iha p q h) (fun c => Or.inl) (fun n c => Or.inl)
    · exact reads_mono (ihb p q h) (fun c => Or.inr) (fun n c => Or.inr)
  | rep a min max ih => exact repAll_reads ih _ _ p q h
  | group name a ih =>
    obtain ⟨r, hr, rfl⟩ := List.mem_map.1 h
    obtain ⟨s, g, h1, h2, h3, h4⟩ := ih p r hr
    refine ⟨s, (name, between p r) :: g, h1, by simp [h2], h3, ?_⟩
    intro n v hv c hc
    rcases List.mem_cons.1 hv with hv | hv
    · cases hv
      rw [between_eq h1] at hc
      exact Or.inl ⟨rfl, h3 c hc⟩
    · exact Or.inr (h4 n v hv c hc)

/-! ### Taking matches apart -/

theorem mem_seq {a b : Re} {p q : Place} (h : q ∈ (Re.seq a b).all p) : ∃ r, r ∈ a.all p ∧ q ∈ b.all r := by
  obtain ⟨r, hr, hq⟩ := List.mem_flatMap.1 h
  exact ⟨r, hr, hq⟩

theorem mem_alt {a b : Re} {p q : Place} (h : q ∈ (Re.alt a b).all p) : q ∈ a.all p ∨ q ∈ b.all p :=
  List.mem_append.1 h

theorem mem_group {name : Text} {a : Re} {p q : Place} (h : q ∈ (Re.group name a).all p) :
    ∃ r s, r ∈ a.all p ∧ p.rest = s ++ r.rest ∧ q = ⟨r.start, r.rest, (name, s) :: r.groups⟩ := by
  obtain ⟨r, hr, rfl⟩ := List.mem_map.1 h
  obtain ⟨s, g, h1, _⟩ := all_reads a p r hr
  exact ⟨r, s, hr, h1, by rw [between_eq h1]⟩

theorem mem_set {s : CharSet} {p q : Place} (h : q ∈ (Re.set s).all p) :
    ∃ c, s.mem c = true ∧ p.rest = c :: q.rest ∧ q.groups = p.groups := by
  unfold Re.all at h
  split at h
  · simp at h
  · next c r hr =>
    split at h
    · next hc => cases List.mem_singleton.1 h; exact ⟨c, hc, hr, rfl⟩
    · simp at h

theorem mem_bol {p q : Place} (h : q ∈ Re.bol.all p) : p.start = true ∧ q = p := by
  unfold Re.all at h
  split at h
  · next hs => exact ⟨hs, List.mem_singleton.1 h⟩
  · simp at h

theorem charSet_single (c d : Char) : CharSet.mem ⟨false, [(c, c)]⟩ d = true ↔ d = c := by
  constructor
  · intro h
    simp only [CharSet.mem, List.any_cons, List.any_nil, Bool.or_false, Bool.bne_false, Bool.and_eq_true,
      decide_eq_true_eq] at h
    exact Char.le_antisymm h.2 h.1
  · rintro rfl
    simp [CharSet.mem]

theorem mem_ch {c : Char} {p q : Place} (h : q ∈ (Re.ch c).all p) : p.rest = c :: q.rest ∧ q.groups = p.groups := by
  obtain ⟨d, h1, h2, h3⟩ := mem_set h
  rw [(charSet_single c d).1 h1] at h2
  exact ⟨h2, h3⟩

theorem mem_lit {t : Text} {p q : Place} (h : q ∈ (Re.lit t).all p) : p.rest = t ++ q.rest ∧ q.groups = p.groups := by
  induction t generalizing p with
  | nil => cases List.mem_singleton.1 h; exact ⟨rfl, rfl⟩
  | cons c t ih =>
    cases t with
    | nil => exact mem_ch h
    | cons d t =>
      obtain ⟨r, h1, h2⟩ := mem_seq (a := Re.ch c) (b := Re.lit (d :: t)) h
      obtain ⟨k1, k2⟩ := mem_ch h1
      obtain ⟨l1, l2⟩ := ih h2
      exact ⟨by rw [k1, l1]; rfl, by rw [l2, k2]⟩

/-- Once or not at all. -/
theorem mem_opt {a : Re} {p q : Place} (h : q ∈ a.opt.all p) : q = p ∨ q ∈ a.all p := by
  have h : q ∈ repAll a.all 1 0 p := h
  unfold repAll at h
  rcases List.mem_append.1 h with h | h
  · obtain ⟨r, hr, hq⟩ := List.mem_flatMap.1 h
    unfold repAll at hq
    cases List.mem_singleton.1 hq
    exact Or.inr (List.mem_filter.1 hr).1
  · exact Or.inl (List.mem_singleton.1 h)

/-- A repetition of one character: the text read, at least one of it. -/
theorem repAll_set {s : CharSet} (n min : Nat) (p q : Place) (h : q ∈ repAll (Re.set s).all n min p) :
    ∃ t : Text, min ≤ t.length ∧ p.rest = t ++ q.rest ∧ q.groups = p.groups ∧ ∀ c ∈ t, s.mem c = true := by
  induction n generalizing min p with
  | zero =>
    unfold repAll at h
    split at h
    · next hm => cases List.mem_singleton.1 h; exact ⟨[], by simp [hm], rfl, rfl, by simp⟩
    · simp at h
  | succ n ih =>
    unfold repAll at h
    rcases List.mem_append.1 h with h | h
    · obtain ⟨r, hr, hq⟩ := List.mem_flatMap.1 h
      obtain ⟨c, h1, h2, h3⟩ := mem_set (List.mem_filter.1 hr).1
      obtain ⟨t, k1, k2, k3, k4⟩ := ih _ r hq
      refine ⟨c :: t, by simp; omega, by rw [h2, k2]; rfl, by rw [k3, h3], ?_⟩
      intro d hd
      rcases List.mem_cons.1 hd with rfl | hd
      · exact h1
      · exact k4 d hd
    · split at h
      · next hm => cases List.mem_singleton.1 h; exact ⟨[], by simp [hm], rfl, rfl, by simp⟩
      · simp at h

theorem mem_plus_set {s : CharSet} {p q : Place} (h : q ∈ (Re.set s).plus.all p) :
    ∃ t : Text, t ≠ [] ∧ p.rest = t ++ q.rest ∧ q.groups = p.groups ∧ ∀ c ∈ t, s.mem c = true := by
  obtain ⟨t, h1, h2, h3, h4⟩ := repAll_set _ 1 p q h
  exact ⟨t, by rintro rfl; simp at h1, h2, h3, h4⟩

/-! ### The matches of a line -/

theorem firstPattern_some {α : Type} (pats : List (α × Re)) (p : Place) (n : α) (m : Text)
    (g : List (Text × Text)) (q : Place) (h : firstPattern pats p = some (n, m, g, q)) :
    ∃ l r l', pats = l ++ (n, r) :: l' ∧ (∀ x ∈ l, x.2.all p = []) ∧ q ∈ r.all p ∧ m = between p q ∧ g = q.groups := by
  induction pats with
  | nil => simp [firstPattern] at h
  | cons x pats ih =>
    obtain ⟨n', r⟩ := x
    unfold firstPattern at h
    split at h
    · next q' qs hq =>
      cases h
      exact ⟨[], r, pats, rfl, by simp, by rw [hq]; simp, rfl, rfl⟩
    · next hq =>
      obtain ⟨l, r', l', h1, h2, h3, h4, h5⟩ := ih h
      refine ⟨(n', r) :: l, r', l', by rw [h1]; rfl, ?_, h3, h4, h5⟩
      intro x hx
      rcases List.mem_cons.1 hx with rfl | hx
      · exact hq
      · exact h2 x hx

/-- A match of a line. -/
structure MatchAt {α : Type} (pats : List (α × Re)) (line : Text) (x : α × Text × List (Text × Text)) where
  before : Text
  p : Place
  q : Place
  line_eq : line = before ++ p.rest
  start : p.start = true → before = []
  groups : p.groups = []
  first : firstPattern pats p = some (x.1, x.2.1, x.2.2, q)

theorem findAll_mem {α : Type} (pats : List (α × Re)) (fuel : Nat) (before : Text) (p : Place)
    (hs : p.start = true → before = []) (hg : p.groups = []) (x : α × Text × List (Text × Text))
    (h : x ∈ findAll pats fuel p) : Nonempty (MatchAt pats (before ++ p.rest) x) := by
  induction fuel generalizing before p with
  | zero => simp [findAll] at h
  | succ fuel ih =>
    unfold findAll at h
    have hnext : ∀ c r, p.rest = c :: r → x ∈ findAll pats fuel ⟨false, r, []⟩ →
        Nonempty (MatchAt pats (before ++ p.rest) x) := by
      intro c r hr hx
      have := ih (before ++ [c]) ⟨false, r, []⟩ (by simp) rfl hx
      rw [hr]
      simpa using this
    split at h
    · next n m g q hf =>
      obtain ⟨l, r, l', _, _, hq, _⟩ := firstPattern_some pats p n m g q hf
      obtain ⟨s, _, hrest, _⟩ := all_reads r p q hq
      split at h
      · rcases List.mem_cons.1 h with rfl | h
        · exact ⟨⟨before, p, q, rfl, hs, hg, hf⟩⟩
        · have := ih (before ++ s) ⟨false, q.rest, []⟩ (by simp) rfl h
          rw [hrest]
          simpa using this
      · rcases List.mem_cons.1 h with rfl | h
        · exact ⟨⟨before, p, q, rfl, hs, hg, hf⟩⟩
        · split at h
          · simp at h
          · next c r hr => exact hnext c r hr h
    · split at h
      · simp at h
      · next c r hr => exact hnext c r hr h

theorem finditer_mem {α : Type} (pats : List (α × Re)) (line : Text) (x : α × Text × List (Text × Text))
    (h : x ∈ finditer pats line) : Nonempty (MatchAt pats line x) := by
  have := findAll_mem pats (line.length + 1) [] ⟨true, line, []⟩ (by simp) rfl x h
  simpa using this

end Bglib
