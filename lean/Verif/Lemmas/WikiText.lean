import Verif.Lemmas.Names
import Verif.Lemmas.WikiLine
/-
Parsing wiki text keeps the invariant; how it can fail.
-/
namespace Bglib
open Spec Doc

variable {S T U : Prop} {E : PyErr → Prop}

/-- Success with a good state, or one of the exceptions `E`. -/
def DoesOr (S T U : Prop) (E : PyErr → Prop) (r : Py Wiki) : Prop := Does S T U r ∨ ∃ e, r = .error e ∧ E e

theorem doesOr_bind {a : Py Wiki} {f : Wiki → Py Wiki} (ha : DoesOr S T U E a)
    (hf : ∀ w, Good S T U w → DoesOr S T U E (f w)) : DoesOr S T U E (a >>= f) := by
  rcases ha with ⟨w, h1, h2⟩ | ⟨e, h1, h2⟩
  · rw [h1]; exact hf w h2
  · rw [h1]; exact Or.inr ⟨e, rfl, h2⟩

/-! ### Macros -/

theorem dispatch_does {w : Wiki} (hw : Good S T U w) (env : Env) (name : Text) (args : Option Text)
    (hT : name = t!"TableOfContent" → T)
    (hP : name = t!"Position" → args = none → E .typeError)
    (hA : name = t!"Analysis" → args = none → E .typeError)
    (hD : name = t!"Analysis" → args ≠ none → env.db = none → E .attributeError)
    (hN : name = t!"Analysis" → args ≠ none → (∃ f p m, env.db = some f ∧ (f p m).numbered = false) → E .assertion)
    (hU : ¬ U → EnvSafe env) (hname : SafeText name) : DoesOr S T U E (w.dispatch env name args) := by
  have hbadArgs : ∀ n args, SafeText n → ∀ o ∈ badArgs n args, opFine U o := fun n args hn => by
    unfold badArgs
    refine cell_fine _ _ rfl rfl fun _ => ?_
    exact safe_append (safe_append (safe_append (safe_append (safe_plainB _ (by decide)) (safe_escape _))
      (safe_plainB _ (by decide))) hn) (safe_plainB _ (by decide))
  have hbadName : ∀ o ∈ badName name args, opFine U o := by
    unfold badName
    refine cell_fine _ _ rfl rfl fun _ => ?_
    exact safe_append (safe_append (safe_append (safe_append (safe_plainB _ (by decide)) (safe_escape _))
      (safe_plainB _ (by decide))) (safe_escape _)) (safe_plainB _ (by decide))
  have hparse : ∀ s, (∃ r, parsePosition (some s) = .ok r) := by
    intro s
    unfold parsePosition
    dsimp only
    split
    · exact ⟨_, rfl⟩
    · exact ⟨_, rfl⟩
  unfold Wiki.dispatch
  split
  · exact Or.inl (run_does _ hw (opFine_of _ (by decide)))
  · split
    · exact Or.inl (run_does _ hw (cell_fine _ _ rfl rfl fun h => (hU h).now))
    · split
      · next hn =>
        obtain ⟨d, i, h1, h2⟩ := toc_does hw (hT hn)
        rw [h1]
        exact Or.inl (does_ok h2)
      · split
        · next hn =>
          cases args with
          | none => exact Or.inr ⟨_, rfl, hP hn rfl⟩
          | some s =>
            obtain ⟨r, hr⟩ := hparse s
            rw [hr]
            cases r with
            | none => exact Or.inl (run_does _ hw (hbadArgs _ _ hname))
            | some pm => exact Or.inl (run_does _ hw (opFine_of _ (by decide)))
        · split
          · next hn =>
            cases args with
            | none => exact Or.inr ⟨_, rfl, hA hn rfl⟩
            | some s =>
              obtain ⟨r, hr⟩ := hparse s
              rw [hr]
              cases r with
              | none => exact Or.inl (run_does _ hw (hbadArgs _ _ hname))
              | some pm =>
                obtain ⟨p, m⟩ := pm
                dsimp only
                cases hdb : env.db with
                | none => exact Or.inr ⟨_, rfl, hD hn (by simp) hdb⟩
                | some f =>
                  dsimp only
                  split
                  · exact Or.inl (run_does _ hw (analysis_fine _ fun h t ht => (hU h).db f hdb p m t ht))
                  · next hnum =>
                    exact Or.inr ⟨_, rfl, hN hn (by simp) ⟨f, p, m, hdb, by simpa using hnum⟩⟩
          · exact Or.inl (run_does _ hw hbadName)

/-! ### Matches of lines -/

/-- No set of the pattern contains `d`. -/
def Re.avoids : Re → Char → Bool
  | .eps, _ | .bol, _ | .eol, _ => true
  | .set s, d => !s.mem d
  | .seq a b, d | .alt a b, d => a.avoids d && b.avoids d
  | .rep a _ _, d | .group _ a, d => a.avoids d

theorem avoids_chars (r : Re) (d c : Char) (h : r.avoids d = true) (hc : r.chars c) : c ≠ d := by
  induction r with
  | eps => exact hc.elim
  | bol => exact hc.elim
  | eol => exact hc.elim
  | set s =>
    rintro rfl
    simp only [Re.avoids, Re.chars, Bool.not_eq_true'] at h hc
    rw [h] at hc
    cases hc
  | seq a b iha ihb | alt a b iha ihb =>
    simp only [Re.avoids, Bool.and_eq_true] at h
    rcases hc with hc | hc
    · exact iha h.1 hc
    · exact ihb h.2 hc
  | rep a _ _ ih => exact ih h hc
  | group _ a ih => exact ih h hc

theorem groupOf_absent (g : List (Text × Text)) (N : List Text) (n : Text) (h : ∀ x ∈ g, x.1 ∈ N) (hn : n ∉ N) :
    groupOf g n = none := by
  unfold groupOf
  rw [Option.map_eq_none_iff, List.find?_eq_none]
  intro x hx hxn
  exact hn (by simpa [← (by simpa using hxn : x.1 = n)] using h x hx)

/-- A match of a line, with its pattern. -/
theorem match_pattern {line : Text} {x : Pat × Text × List (Text × Text)} (M : MatchAt linePatterns line x) :
    ∃ l r l', linePatterns = l ++ (x.1, r) :: l' ∧ (∀ y ∈ l, y.2.all M.p = []) ∧ M.q ∈ r.all M.p ∧
      M.p.rest = x.2.1 ++ M.q.rest ∧ x.2.2 = M.q.groups ∧ (∀ c ∈ x.2.1, r.chars c) := by
  obtain ⟨l, r, l', h1, h2, h3, h4, h5⟩ := firstPattern_some _ _ _ _ _ _ M.first
  obtain ⟨s, _, k1, _, k2, _⟩ := all_reads r _ _ h3
  rw [between_eq k1] at h4
  exact ⟨l, r, l', h1, h2, h3, by rw [h4]; exact k1, h5, by rw [h4]; exact k2⟩

theorem match_re {line : Text} {x : Pat × Text × List (Text × Text)} (M : MatchAt linePatterns line x) (P : Pat × Re → Bool)
    (h : linePatterns.all P = true) : ∃ r, P (x.1, r) = true ∧ M.q ∈ r.all M.p ∧ M.p.rest = x.2.1 ++ M.q.rest ∧
      x.2.2 = M.q.groups ∧ (∀ c ∈ x.2.1, r.chars c) := by
  obtain ⟨l, r, l', h1, _, h3, h4, h5, h6⟩ := match_pattern M
  exact ⟨r, List.all_eq_true.1 h _ (by rw [h1]; simp), h3, h4, h5, h6⟩

theorem match_contains {line : Text} {x : Pat × Text × List (Text × Text)} (M : MatchAt linePatterns line x) :
    Contains line x.2.1 := by
  obtain ⟨_, _, _, _, _, _, h, _⟩ := match_pattern M
  exact ⟨M.before, M.q.rest, by rw [List.append_assoc, ← h]; exact M.line_eq⟩

/-- The patterns whose matches are written as they are. -/
def isPlain (p : Pat) : Bool := p ∈ [.entryLink, .queryLink, .matchLink, .camelcase, .schemeWikiname]

theorem plain_match {line : Text} {x : Pat × Text × List (Text × Text)} (M : MatchAt linePatterns line x)
    (h : isPlain x.1 = true) : ∀ c ∈ x.2.1, c ≠ '<' ∧ c ≠ '>' ∧ c ≠ '&' := by
  obtain ⟨r, h1, _, _, _, h2⟩ := match_re M
    (fun y => !isPlain y.1 || (y.2.avoids '<' && y.2.avoids '>' && y.2.avoids '&')) (by decide)
  simp only [h, Bool.not_true, Bool.false_or, Bool.and_eq_true] at h1
  exact fun c hc => ⟨avoids_chars r _ c h1.1.1 (h2 c hc), avoids_chars r _ c h1.1.2 (h2 c hc),
    avoids_chars r _ c h1.2 (h2 c hc)⟩

theorem rest_match {line : Text} {x : Pat × Text × List (Text × Text)} (M : MatchAt linePatterns line x)
    (h : x.1 = .rest) : SafeText x.2.1 := by
  obtain ⟨l, r, l', h1, h2, h3, h4, _⟩ := match_pattern M
  rw [h] at h1
  have hmem : (Pat.escapeHtml, Re.any [('<', '<'), ('>', '>'), ('&', '&'), ('?', '?')]) ∈ l ∧
      r = .set ⟨true, [('\n', '\n')]⟩ := by
    have hr : (linePatterns.all fun y => y.1 ≠ .rest || y.2 = .set ⟨true, [('\n', '\n')]⟩) = true := by decide
    have hr' := List.all_eq_true.1 hr (.rest, r) (by rw [h1]; simp)
    refine ⟨?_, by simpa using hr'⟩
    have hsplit : linePatterns = linePatterns.dropLast ++ [(Pat.rest, Re.set ⟨true, [('\n', '\n')]⟩)] := by decide
    have hno : (linePatterns.dropLast.all fun y => y.1 ≠ .rest) = true := by decide
    have hin : (Pat.escapeHtml, Re.any [('<', '<'), ('>', '>'), ('&', '&'), ('?', '?')]) ∈ linePatterns.dropLast := by
      decide
    rw [hsplit] at h1
    rcases List.append_eq_append_iff.1 h1 with ⟨a, h5, h6⟩ | ⟨a, h5, h6⟩
    · rw [h5]
      exact List.mem_append_left _ hin
    · cases a with
      | nil => rw [List.append_nil] at h5; rw [← h5]; exact hin
      | cons y a =>
        simp only [List.cons_append, List.cons.injEq] at h6
        have := List.all_eq_true.1 hno y (by rw [h5]; simp)
        rw [← h6.1] at this
        simp at this
  obtain ⟨hl, rfl⟩ := hmem
  obtain ⟨c, _, hc, _⟩ := mem_set h3
  have hx : x.2.1 = [c] := by
    have := h4.symm.trans hc
    have : x.2.1 ++ M.q.rest = [c] ++ M.q.rest := this
    exact List.append_cancel_right this
  rw [hx]
  have hnone := h2 _ hl
  refine safe_plain _ fun d hd => ?_
  cases List.mem_singleton.1 hd
  unfold Re.any Re.all at hnone
  rw [hc] at hnone
  dsimp only at hnone
  split at hnone
  · cases hnone
  · next hm => exact ⟨by rintro rfl; exact hm (by decide), by rintro rfl; exact hm (by decide),
      by rintro rfl; exact hm (by decide)⟩

theorem macro_match {line : Text} {x : Pat × Text × List (Text × Text)} (M : MatchAt linePatterns line x)
    (h : x.1 = .macro) : ∃ name : Text, groupOf x.2.2 t!"macro_name" = some name ∧ SafeText name ∧
      ((groupOf x.2.2 t!"macro_args" = none ∧ x.2.1 = t!"[[" ++ name ++ t!"]]") ∨
       ∃ args, groupOf x.2.2 t!"macro_args" = some args ∧ x.2.1 = t!"[[" ++ name ++ t!"(" ++ args ++ t!")]]") := by
  obtain ⟨r, h1, h2, h3, h4, _⟩ := match_re M (fun y => y.1 ≠ .macro || y.2 = macroRe) (by decide)
  simp only [h, ne_eq, not_true_eq_false, decide_false, Bool.false_or, decide_eq_true_eq] at h1
  subst h1
  obtain ⟨p1, a1, h2⟩ := mem_seq (a := .lit t!"[[") h2
  obtain ⟨p2, a2, h2⟩ := mem_seq (a := .group t!"macro_name" (.plus (.any wordChars))) h2
  obtain ⟨p3, a3, a4⟩ := mem_seq (b := .lit t!"]]") h2
  obtain ⟨b1, c1⟩ := mem_lit a1
  obtain ⟨p2', name, d1, d2, rfl⟩ := mem_group a2
  obtain ⟨name', _, d3, d4, d5⟩ := mem_plus_set d1
  have : name' = name := List.append_cancel_right (d3.symm.trans d2)
  subst this
  have hsafe : SafeText name' := by
    refine safe_plain _ fun c hc => ?_
    have := d5 c hc
    refine ⟨?_, ?_, ?_⟩ <;> rintro rfl <;> exact absurd this (by decide)
  obtain ⟨b4, c4⟩ := mem_lit a4
  refine ⟨name', ?_⟩
  have e0 : M.p.groups = [] := M.groups
  rcases mem_opt a3 with rfl | a3
  · have hg : x.2.2 = [(t!"macro_name", name')] := by rw [h4, c4]; simp [d4, c1, e0]
    rw [hg]
    refine ⟨by simp [groupOf], hsafe, Or.inl ⟨by simp [groupOf], ?_⟩⟩
    refine List.append_cancel_right (bs := M.q.rest) ?_
    rw [← h3, b1, d3]
    dsimp only at b4
    rw [b4]
    simp
  · obtain ⟨p4, f1, a3⟩ := mem_seq (a := .ch '(') a3
    obtain ⟨p5, f2, f3⟩ := mem_seq (b := .ch ')') a3
    obtain ⟨g1, g2⟩ := mem_ch f1
    obtain ⟨p5', args, k1, k2, rfl⟩ := mem_group f2
    obtain ⟨args', _, k3, k4, _⟩ := mem_plus_set k1
    obtain ⟨g3, g4⟩ := mem_ch f3
    dsimp only at g1 g2 g3 g4
    have hg : x.2.2 = [(t!"macro_args", args), (t!"macro_name", name')] := by
      rw [h4, c4, g4]; simp [k4, g2, d4, c1, e0]
    rw [hg]
    refine ⟨by simp [groupOf], hsafe, Or.inr ⟨args, by simp [groupOf], ?_⟩⟩
    refine List.append_cancel_right (bs := M.q.rest) ?_
    rw [← h3, b1, d3, g1, k2, g3, b4]
    simp

theorem itemize_match {line : Text} {x : Pat × Text × List (Text × Text)} (M : MatchAt linePatterns line x)
    (h : x.1 = .itemize) : x.2.1.head? = some ' ' ∧ ((groupOf x.2.2 t!"sign").isSome = true →
      ∃ (n : Nat) (c : Char) (b : Text), line = List.replicate (n + 1) ' ' ++ c :: b ∧ (c = '+' ∨ c = '-')) := by
  obtain ⟨r, h1, h2, h3, h4, _⟩ := match_re M (fun y => y.1 ≠ .itemize || y.2 = itemizeRe) (by decide)
  simp only [h, ne_eq, not_true_eq_false, decide_false, Bool.false_or, decide_eq_true_eq] at h1
  subst h1
  obtain ⟨p1, a1, h2⟩ := mem_seq (a := .bol) h2
  obtain ⟨hstart, rfl⟩ := mem_bol a1
  obtain ⟨p2, a2, h2⟩ := mem_seq (a := .plus (.ch ' ')) h2
  obtain ⟨p3, a3, a4⟩ := mem_seq (b := .ch ' ') h2
  obtain ⟨t, hne, b2, c2, d2⟩ := mem_plus_set a2
  obtain ⟨b4, c4⟩ := mem_ch a4
  have hall : ∀ c ∈ t, c = ' ' := fun c hc => (charSet_single ' ' c).1 (d2 c hc)
  have ht : t = List.replicate t.length ' ' := List.eq_replicate_iff.2 ⟨rfl, hall⟩
  have hline : line = M.p.rest := by have := M.line_eq; rw [M.start hstart] at this; exact this
  obtain ⟨s3, _, e3, _⟩ := all_reads _ _ _ a3
  have e0 : M.p.groups = [] := M.groups
  refine ⟨?_, ?_⟩
  · have : x.2.1 = t ++ s3 ++ [' '] := by
      refine List.append_cancel_right (bs := M.q.rest) ?_
      rw [← h3, b2, e3, b4]
      simp
    rw [this]
    cases t with
    | nil => exact absurd rfl hne
    | cons c t => simp [hall c (by simp)]
  · intro hs
    rw [h4, c4] at hs
    have habs : ∀ r : Re, p3 ∈ r.all p2 → t!"sign" ∉ r.names → False := by
      intro r hr hn
      obtain ⟨g, k1, k2⟩ := all_names r _ _ hr
      rw [k1, c2, e0, List.append_nil, groupOf_absent g r.names _ k2 hn] at hs
      cases hs
    obtain ⟨n, hn⟩ : ∃ n, t.length = n + 1 := ⟨t.length - 1, by
      have : t.length ≠ 0 := by simpa using hne
      omega⟩
    have hsign : ∀ c : Char, ∀ name, p3.rest.length ≤ p2.rest.length → (∃ z, z ∈ (Re.group name (.rep (.ch c) 1 (some 3))).all p2 ∧
        z.rest = p3.rest) → ∃ b, p2.rest = c :: b := by
      rintro c name - ⟨z, hz, _⟩
      obtain ⟨z', s, k1, k2, _⟩ := mem_group hz
      obtain ⟨u, l1, l2, _, l3⟩ := repAll_set _ 1 _ _ k1
      cases u with
      | nil => simp at l1
      | cons d u =>
        have := (charSet_single c d).1 (l3 d (by simp))
        subst this
        exact ⟨u ++ z'.rest, l2⟩
    rcases mem_alt (a := .group t!"star" (.ch '*')) a3 with h | h
    · exact (habs _ h (by decide)).elim
    · rcases mem_alt h with h | h
      · obtain ⟨z, s, k1, k2, hz⟩ := mem_group h
        have hlen : p3.rest.length ≤ p2.rest.length := by rw [e3]; simp
        have hzr : z.rest = p3.rest := by rw [hz]
        rcases mem_alt k1 with k1 | k1
        · obtain ⟨b, hb⟩ := hsign '+' _ hlen ⟨z, k1, hzr⟩
          exact ⟨n, '+', b, by rw [hline, b2, hb, ← hn, ← ht], Or.inl rfl⟩
        · obtain ⟨b, hb⟩ := hsign '-' _ hlen ⟨z, k1, hzr⟩
          exact ⟨n, '-', b, by rw [hline, b2, hb, ← hn, ← ht], Or.inr rfl⟩
      · exact (habs _ h (by decide)).elim

theorem anchor_match {line : Text} {x : Pat × Text × List (Text × Text)} (M : MatchAt linePatterns line x)
    (h : x.1 = .autoAnchor) (hb : x.2.1.head? ≠ some '!') (ha : ¬ (Contains line x.2.1 ∧ AmpUrl x.2.1)) :
    SafeText x.2.1 := by
  obtain ⟨r, h1, h2, h3, h4, h6⟩ := match_re M (fun y => y.1 ≠ .autoAnchor || (y.2 = .seq bang (urlRe t!"url_2") &&
    (y.2.avoids '<' && y.2.avoids '>'))) (by decide)
  simp only [h, ne_eq, not_true_eq_false, decide_false, Bool.false_or, decide_eq_true_eq, Bool.and_eq_true] at h1
  obtain ⟨rfl, h7, h8⟩ := h1
  have hamp : '&' ∉ x.2.1 := by
    intro hamp
    refine ha ⟨match_contains M, ?_⟩
    obtain ⟨p1, a1, h2⟩ := mem_seq h2
    obtain ⟨s1, _, e1, _⟩ := all_reads _ _ _ h2
    rcases mem_opt a1 with rfl | a1
    · obtain ⟨z, s, k1, k2, hz⟩ := mem_group h2
      obtain ⟨p2, l1, k1⟩ := mem_seq (a := .lit t!"http") k1
      obtain ⟨p3, l2, k1⟩ := mem_seq (a := .opt (.ch 's')) k1
      obtain ⟨p4, l3, l4⟩ := mem_seq (a := .lit t!"://") k1
      obtain ⟨m1, _⟩ := mem_lit l1
      obtain ⟨m3, _⟩ := mem_lit l3
      obtain ⟨u, _, m4, _, m5⟩ := mem_plus_set l4
      have hzr : M.q.rest = z.rest := by rw [hz]
      rcases mem_opt l2 with rfl | l2
      · have hu : x.2.1 = t!"http://" ++ u := by
          refine List.append_cancel_right (bs := M.q.rest) ?_
          rw [← h3, m1, m3, m4, hzr]; simp
        refine ⟨u, Or.inl hu, m5, ?_⟩
        rw [hu] at hamp
        simpa using hamp
      · obtain ⟨m2, _⟩ := mem_ch l2
        have hu : x.2.1 = t!"https://" ++ u := by
          refine List.append_cancel_right (bs := M.q.rest) ?_
          rw [← h3, m1, m2, m3, m4, hzr]; simp
        refine ⟨u, Or.inr hu, m5, ?_⟩
        rw [hu] at hamp
        simpa using hamp
    · exfalso
      obtain ⟨m1, _⟩ := mem_ch a1
      refine hb ?_
      have : x.2.1 = '!' :: s1 := by
        refine List.append_cancel_right (bs := M.q.rest) ?_
        rw [← h3, m1, e1]; rfl
      rw [this]; rfl
  refine safe_plain _ fun c hc => ⟨avoids_chars _ _ c h7 (h6 c hc), avoids_chars _ _ c h8 (h6 c hc), ?_⟩
  rintro rfl
  exact hamp hc

end Bglib
