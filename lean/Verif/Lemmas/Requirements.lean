import Verif.Spec.Requirements
import Verif.Lemmas.Setup
/-
Reading requirements.
-/
namespace Bglib.Setup
open Bglib Bglib.Spec.Setup

theorem texts_strings : ∀ l : List Text, texts (strings l) = l := by
  have key : ∀ l : List Text, texts (List.intersperse (.sign ',') (l.map .str)) = l := by
    intro l
    induction l with
    | nil => rfl
    | cons a l ih =>
      cases l with
      | nil => rfl
      | cons b l =>
        simp only [List.map_cons, List.intersperse_cons_cons] at ih ⊢
        simp only [texts, List.filterMap_cons] at ih ⊢
        rw [ih]
  intro l
  simp only [strings, texts, List.filterMap_append, List.cons_append, List.filterMap_cons, List.filterMap_nil, List.append_nil]
  exact key l

/-- What a script requires is what is read from the lines of freeze.txt. -/
theorem required_eq (f : Files) (hf : Fits f) : ∃ out, main f = .ok out ∧
    required out = ((readLines [] f.freeze).flatMap cleanLines).mapM requirement := by
  refine ⟨_, main_eq f, ?_⟩
  have ha : arguments (partA ++ (Doc.strip f.version ++ t!"\",") ++ partB ++ (f.description ++ t!"\"\"\"") ++
      partC ++ (reprList (readLines [] f.freeze) ++ t!",") ++ partD) =
      some (intended (Doc.strip f.version) f.description (readLines [] f.freeze)) := by
    obtain ⟨r, h3, h4⟩ := arguments_of (Doc.strip f.version) f.description (readLines [] f.freeze)
    unfold arguments words
    rw [words_of f hf]
    simp only [bind, Option.bind, h3, h4]
    exact mapM_toWords _
  unfold required
  rw [ha]
  have hi : (intended (Doc.strip f.version) f.description (readLines [] f.freeze)).find? (fun a => a.1 = t!"install_requires") =
      some (t!"install_requires", strings (readLines [] f.freeze)) := rfl
  simp only [bind, Option.bind, hi, texts_strings]

theorem readLines_line (l r : Text) (hl : '\n' ∉ l) : ∀ acc, readLines acc (l ++ '\n' :: r) = (acc.reverse ++ l ++ ['\n']) :: readLines [] r := by
  induction l with
  | nil => intro acc; simp [readLines]
  | cons c l ih =>
    intro acc
    simp only [List.mem_cons, not_or] at hl
    simp only [List.cons_append, readLines, if_neg (Ne.symm hl.1)]
    rw [ih hl.2]
    simp

theorem readLines_mem (l b : Text) (hl : '\n' ∉ l) : ∀ (a acc : Text),
    (l ++ ['\n']) ∈ readLines acc (a ++ '\n' :: (l ++ '\n' :: b)) := by
  intro a
  induction a with
  | nil =>
    intro acc
    simp only [List.nil_append, readLines, ↓reduceIte]
    rw [readLines_line l b hl []]
    simp
  | cons c a ih =>
    intro acc
    simp only [List.cons_append, readLines]
    split
    · exact List.mem_cons_of_mem _ (ih [])
    · exact ih _

theorem cut_line (l : Text) (hl : ∀ c ∈ l, c ≠ '\n' ∧ c ≠ '\r') : ∀ acc, cut acc (l ++ ['\n']) = [acc.reverse ++ l, []] := by
  induction l with
  | nil => intro acc; simp [cut]
  | cons c l ih =>
    intro acc
    have hc := hl c (by simp)
    simp only [List.cons_append, cut]
    rw [if_neg (fun h => h.elim hc.1 hc.2), ih fun d hd => hl d (by simp [hd])]
    simp

theorem dropWhile_none {p : Char → Bool} {t : Text} (h : ∀ c ∈ t, p c = false) : t.dropWhile p = t := by
  cases t with
  | nil => rfl
  | cons c t => simp [h c (by simp)]

theorem strip_none {t : Text} (h : ∀ c ∈ t, isSpace c = false) : Doc.strip t = t := by
  unfold Doc.strip
  rw [dropWhile_none h, dropWhile_none (fun c hc => h c (List.mem_reverse.1 hc)), List.reverse_reverse]

theorem namePart_space {c : Char} (h : namePart c = true) : isSpace c = false := by
  cases hs : isSpace c with
  | false => rfl
  | true =>
    exfalso
    simp only [isSpace, Bool.or_eq_true, decide_eq_true_eq] at hs
    rcases hs with ((((hs | hs) | hs) | hs) | hs) | hs <;> (subst hs; revert h; decide)

theorem takeWhile_upto {p : Char → Bool} {a : Text} {c : Char} {r : Text} (h : ∀ x ∈ a, p x = true) (hc : p c = false) :
    (a ++ c :: r).takeWhile p = a ∧ (a ++ c :: r).dropWhile p = c :: r := by
  induction a with
  | nil => simp [hc]
  | cons x a ih =>
    have := ih fun y hy => h y (by simp [hy])
    simp [h x (by simp), this]

theorem takeWhile_whole {p : Char → Bool} {a : Text} (h : ∀ x ∈ a, p x = true) : a.takeWhile p = a ∧ a.dropWhile p = [] := by
  induction a with
  | nil => simp
  | cons x a ih =>
    have := ih fun y hy => h y (by simp [hy])
    simp [h x (by simp), this]

theorem skip_name {t : Text} (h : ∀ c ∈ t.head?, isSpace c = false) : skip t = t := by
  cases t with
  | nil => rfl
  | cons c t => simp [skip, h c (by simp)]

/-- A line of `pip freeze` is read as it was meant. -/
theorem requirement_pin (p : Text × Text) (hp : IsPin p) :
    (cleanLines (pinned p)).mapM requirement = some [⟨p.1, [(t!"==", p.2)]⟩] := by
  obtain ⟨n, v⟩ := p
  obtain ⟨hn, hv, h1, h2⟩ := hp
  dsimp only at hn hv h1 h2
  have hsp : ∀ c ∈ n ++ t!"==" ++ v, isSpace c = false := by
    intro c hc
    simp only [List.mem_append] at hc
    rcases hc with (hc | hc) | hc
    · exact namePart_space (h1 c hc)
    · have : c = '=' := by simpa using hc
      subst this; decide
    · exact namePart_space (h2 c hc)
  have hcut : cut [] (pinned (n, v)) = [n ++ t!"==" ++ v, []] := by
    have := cut_line (n ++ t!"==" ++ v) (fun c hc => by
      have := hsp c hc
      constructor <;> (rintro rfl; revert this; decide)) []
    simpa [pinned] using this
  obtain ⟨c, n', rfl⟩ : ∃ c n', n = c :: n' := by
    cases n with
    | nil => exact absurd rfl hn
    | cons c n' => exact ⟨c, n', rfl⟩
  have hcl : cleanLines (pinned (c :: n', v)) = [c :: n' ++ t!"==" ++ v] := by
    unfold cleanLines
    rw [hcut]
    have hc : c ≠ '#' := fun e => by have := h1 c (by simp); rw [e] at this; revert this; decide
    have : Doc.strip ([] : Text) = [] := rfl
    simp only [List.map_cons, List.map_nil, strip_none hsp, this, List.filter_cons, List.filter_nil]
    simp [hc]
  rw [hcl]
  generalize hm : c :: n' = m at *
  have hsk : skip (m ++ t!"==" ++ v) = m ++ t!"==" ++ v := by
    rw [← hm]
    exact skip_name fun d hd => by
      simp only [List.cons_append, List.head?_cons, Option.mem_some_iff] at hd
      rw [← hd]
      exact hsp c (by rw [← hm]; simp)
  have e : m ++ t!"==" ++ v = m ++ '=' :: ('=' :: v) := by simp
  have ht := takeWhile_upto (r := '=' :: v) h1 (c := '=') (by decide)
  have hve : versionSpecs (m ++ t!"==" ++ v).length ('=' :: '=' :: v) = some [(t!"==", v)] := by
    have hlen : ∃ k, (m ++ t!"==" ++ v).length = k + 1 := ⟨m.length + v.length + 1, by simp; omega⟩
    obtain ⟨k, hk⟩ := hlen
    rw [hk]
    have hs1 : skip ('=' :: '=' :: v) = '=' :: '=' :: v := rfl
    have hs2 : skip v = v := skip_name fun d hd => namePart_space (h2 d (List.mem_of_mem_head? hd))
    have hvs : versionSpec ('=' :: '=' :: v) = some ((t!"==", v), []) := by
      unfold versionSpec
      rw [hs1]
      simp only [operator, hs2, (takeWhile_whole h2).1, (takeWhile_whole h2).2, if_neg hv]
    have hle : lineEnd ('=' :: '=' :: v) = false := by simp [lineEnd, hs1]
    have hle2 : lineEnd [] = true := rfl
    have hs3 : skip ([] : Text) = [] := rfl
    simp only [versionSpecs, hle, hvs, hs3, hle2]
    simp
  simp only [List.mapM_cons, List.mapM_nil, bind, Option.bind, pure]
  unfold requirement
  rw [hsk, e, ht.1, ht.2, ← e, hve, if_neg hn]
  rfl

theorem mapM_append' (f : Text → Option Requirement) (a b : List Text) :
    (a ++ b).mapM f = (a.mapM f).bind fun x => (b.mapM f).map (x ++ ·) := by
  rw [List.mapM_append]
  cases a.mapM f <;> cases b.mapM f <;> rfl

theorem pins_read : ∀ (pins : List (Text × Text)), (∀ p ∈ pins, IsPin p) →
    ((readLines [] (pins.flatMap pinned)).flatMap cleanLines).mapM requirement = some (pins.map fun p => ⟨p.1, [(t!"==", p.2)]⟩)
  | [], _ => rfl
  | p :: ps, h => by
    have hp := h p (by simp)
    have ih := pins_read ps fun q hq => h q (by simp [hq])
    have hnl : '\n' ∉ p.1 ++ t!"==" ++ p.2 := by
      intro hc
      simp only [List.mem_append] at hc
      rcases hc with (hc | hc) | hc
      · have := hp.2.2.1 _ hc; revert this; decide
      · revert hc; decide
      · have := hp.2.2.2 _ hc; revert this; decide
    have e : (p :: ps).flatMap pinned = (p.1 ++ t!"==" ++ p.2) ++ '\n' :: ps.flatMap pinned := by
      simp [pinned]
    rw [e, readLines_line _ _ hnl]
    have e2 : ([] : Text).reverse ++ (p.1 ++ t!"==" ++ p.2) ++ ['\n'] = pinned p := by simp [pinned]
    rw [e2, List.flatMap_cons, mapM_append', requirement_pin p hp, ih]
    rfl

/-! ### Lines that are refused -/

/-- Nothing but the signs used in requirements up to a comment. -/
def proper (t : Text) : Bool := (t.takeWhile (· ≠ '#')).all usedIn

theorem proper_append {a b : Text} (ha : ∀ c ∈ a, usedIn c = true) (hb : proper b = true) : proper (a ++ b) = true := by
  induction a with
  | nil => exact hb
  | cons c a ih =>
    have hc := ha c (by simp)
    have hne : c ≠ '#' := fun e => by rw [e] at hc; revert hc; decide
    have := ih fun d hd => ha d (by simp [hd])
    unfold proper at this ⊢
    simp only [List.cons_append, List.takeWhile_cons, decide_not]
    simp [hne, hc] at this ⊢
    exact this

theorem proper_all {a : Text} (ha : ∀ c ∈ a, usedIn c = true) : proper a = true := by
  have := proper_append (b := []) ha rfl
  rwa [List.append_nil] at this

theorem space_used {c : Char} (h : isSpace c = true) : usedIn c = true := by simp [usedIn, h]

theorem name_used {c : Char} (h : namePart c = true) : usedIn c = true := by simp [usedIn, h]

theorem mem_takeWhile {p : Char → Bool} {t : Text} {c : Char} (h : c ∈ t.takeWhile p) : p c = true := by
  induction t with
  | nil => cases h
  | cons d t ih =>
    rw [List.takeWhile_cons] at h
    split at h
    · rename_i hd
      rcases List.mem_cons.1 h with h | h
      · rw [h]; exact hd
      · exact ih h
    · cases h

theorem proper_skip {t : Text} (h : proper (skip t) = true) : proper t = true := by
  have e : t.takeWhile isSpace ++ skip t = t := List.takeWhile_append_dropWhile
  rw [← e]
  exact proper_append (fun c hc => space_used (mem_takeWhile hc)) h

theorem proper_names {t : Text} (h : proper (t.dropWhile namePart) = true) : proper t = true := by
  have e : t.takeWhile namePart ++ t.dropWhile namePart = t := List.takeWhile_append_dropWhile
  rw [← e]
  exact proper_append (fun c hc => name_used (mem_takeWhile hc)) h

theorem proper_end {t : Text} (h : lineEnd t = true) : proper t = true := by
  apply proper_skip
  unfold lineEnd at h
  cases hs : skip t with
  | nil => rfl
  | cons c r =>
    rw [hs] at h
    have : c = '#' := by simpa using h
    rw [this]
    rfl

theorem operator_used {t r o : Text} (h : operator t = some (o, r)) (hr : proper r = true) : proper t = true := by
  have key : ∀ a : Text, (∀ c ∈ a, usedIn c = true) → proper (a ++ r) = true := fun a ha => proper_append ha hr
  unfold operator at h
  split at h
  · cases h; exact key ['<', '='] (by decide)
  · cases h; exact key ['<'] (by decide)
  · cases h; exact key ['>', '='] (by decide)
  · cases h; exact key ['>'] (by decide)
  · cases h; exact key ['=', '='] (by decide)
  · cases h; exact key ['!', '='] (by decide)
  · cases h

theorem versionSpec_used {t r : Text} {v : Text × Text} (h : versionSpec t = some (v, r)) (hr : proper r = true) : proper t = true := by
  unfold versionSpec at h
  cases ho : operator (skip t) with
  | none => rw [ho] at h; cases h
  | some p =>
    obtain ⟨o, r'⟩ := p
    rw [ho] at h
    dsimp only at h
    split at h
    · cases h
    · cases h
      exact proper_skip (operator_used ho (proper_skip (proper_names hr)))

theorem versionSpecs_used : ∀ (n : Nat) (t : Text) (vs : List (Text × Text)), versionSpecs n t = some vs → proper t = true
  | 0, t, vs, h => by
    unfold versionSpecs at h
    split at h
    · rename_i he; exact proper_end he
    · cases h
  | n + 1, t, vs, h => by
    unfold versionSpecs at h
    split at h
    · rename_i he; exact proper_end he
    · cases hv : versionSpec t with
      | none => rw [hv] at h; cases h
      | some p =>
        obtain ⟨v, r⟩ := p
        rw [hv] at h
        dsimp only at h
        split at h
        · rename_i hc
          cases hq : versionSpecs n (skip r).tail with
          | none => rw [hq] at h; cases h
          | some ws =>
            refine versionSpec_used hv (proper_skip ?_)
            have := versionSpecs_used n _ ws hq
            cases hk : skip r with
            | nil => rw [hk] at hc; cases hc
            | cons c k =>
              rw [hk] at hc this
              have e : c = ',' := by simpa using hc
              rw [e]
              exact proper_append (a := [',']) (by decide) this
        · split at h
          · rename_i he; exact versionSpec_used hv (proper_end he)
          · cases h

theorem requirement_used {t : Text} {q : Requirement} (h : requirement t = some q) : proper t = true := by
  unfold requirement at h
  split at h
  · cases h
  · cases hv : versionSpecs t.length ((skip t).dropWhile namePart) with
    | none => rw [hv] at h; cases h
    | some vs => exact proper_skip (proper_names (versionSpecs_used _ _ vs hv))

theorem strip_parts (t : Text) : ∃ a b, t = a ++ Doc.strip t ++ b ∧ (∀ c ∈ a, isSpace c = true) ∧ ∀ c ∈ b, isSpace c = true := by
  refine ⟨t.takeWhile isSpace, ((t.dropWhile isSpace).reverse.takeWhile isSpace).reverse, ?_, fun c hc => mem_takeWhile hc, fun c hc =>
    mem_takeWhile (List.mem_reverse.1 hc)⟩
  unfold Doc.strip
  rw [List.append_assoc, ← List.reverse_append, List.takeWhile_append_dropWhile, List.reverse_reverse, List.takeWhile_append_dropWhile]

/-- A sign that is not used in requirements, with no comment before it. -/
theorem strip_improper {x y : Text} {c : Char} (hc : usedIn c = false) (hx : '#' ∉ x) (h1 : c ≠ '#') :
    proper (Doc.strip (x ++ c :: y)) = false ∧ ∃ d r, Doc.strip (x ++ c :: y) = d :: r ∧ d ≠ '#' := by
  obtain ⟨a, b, e, ha, hb⟩ := strip_parts (x ++ c :: y)
  generalize Doc.strip (x ++ c :: y) = s at e
  have hsp : isSpace c = false := by
    cases hs : isSpace c with
    | false => rfl
    | true => rw [space_used hs] at hc; cases hc
  have hbad : ∀ x y : Text, '#' ∉ x → proper (x ++ c :: y) = false := by
    intro x y hx
    unfold proper
    have ht : ∀ x : Text, '#' ∉ x → c ∈ (x ++ c :: y).takeWhile (· ≠ '#') := by
      intro x hx
      induction x with
      | nil => simp [h1]
      | cons d x ih =>
        simp only [List.mem_cons, not_or] at hx
        simp only [List.cons_append, List.takeWhile_cons, decide_not]
        have := ih hx.2
        simp [Ne.symm hx.1] at this ⊢
        exact .inr this
    cases hh : ((x ++ c :: y).takeWhile (· ≠ '#')).all usedIn with
    | false => rfl
    | true =>
      have := List.all_eq_true.1 hh c (ht x hx)
      rw [hc] at this; cases this
  -- the sign lies in what is left
  have key : ∃ x', ∃ y', s = x' ++ c :: y' ∧ '#' ∉ x' := by
    have e1 : x ++ c :: y = a ++ (s ++ b) := by rw [e, List.append_assoc]
    rcases List.append_eq_append_iff.1 e1 with ⟨a', h2, h3⟩ | ⟨c', h2, h3⟩
    · cases a' with
      | nil =>
        rw [List.nil_append] at h3
        rw [List.append_nil] at h2
        cases s with
        | nil =>
          have : c ∈ b := by rw [List.nil_append] at h3; rw [← h3]; simp
          rw [hb c this] at hsp; cases hsp
        | cons d s =>
          simp only [List.cons_append, List.cons.injEq] at h3
          exact ⟨[], s, by rw [List.nil_append, h3.1], by simp⟩
      | cons d a' =>
        simp only [List.cons_append, List.cons.injEq] at h3
        have : c ∈ a := by rw [h2, h3.1]; simp
        rw [ha c this] at hsp; cases hsp
    · -- x = a ++ c', s ++ b = c' ++ c :: y
      have hc' : '#' ∉ c' := fun h => hx (by rw [h2]; simp [h])
      rcases List.append_eq_append_iff.1 h3 with ⟨k, h4, h5⟩ | ⟨k, h4, h5⟩
      · have : c ∈ b := by rw [h5]; simp
        rw [hb c this] at hsp; cases hsp
      · cases k with
        | nil =>
          rw [List.nil_append] at h5
          have : c ∈ b := by rw [← h5]; simp
          rw [hb c this] at hsp; cases hsp
        | cons d k =>
          simp only [List.cons_append, List.cons.injEq] at h5
          exact ⟨c', k, by rw [h4, h5.1], hc'⟩
  obtain ⟨x', y', rfl, hx'⟩ := key
  refine ⟨hbad x' y' hx', ?_⟩
  cases x' with
  | nil => exact ⟨c, y', rfl, h1⟩
  | cons d x' => exact ⟨d, x' ++ c :: y', rfl, fun e => hx' (by simp [e])⟩

theorem mapM_none {f : Text → Option Requirement} : ∀ {l : List Text} {a : Text}, a ∈ l → f a = none → l.mapM f = none
  | b :: l, a, h, hf => by
    simp only [List.mapM_cons, bind, Option.bind]
    rcases List.mem_cons.1 h with h | h
    · rw [← h, hf]
    · cases f b with
      | none => rfl
      | some q => simp only [mapM_none h hf]

end Bglib.Setup
