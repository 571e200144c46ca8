import Verif.Spec.Setup
/-
How the installation script is written and read.
-/
namespace Bglib.Spec.Setup
open Bglib Bglib.Setup

/-! ### Filling the template -/

/-- A part of a template. -/
inductive Part where
  | plain (t : Text)
  | opening
  | closing
  | field (name : Text)

def Part.text : Part → Text
  | .plain t => t
  | .opening => t!"{{"
  | .closing => t!"}}"
  | .field n => '{' :: n ++ t!"}"

def Part.Proper : Part → Prop
  | .plain t => ∀ c ∈ t, c ≠ '{' ∧ c ≠ '}'
  | .field n => n ≠ [] ∧ ∀ c ∈ n, c ≠ '{' ∧ c ≠ '}'
  | _ => True

instance (p : Part) : Decidable p.Proper := by
  cases p <;> unfold Part.Proper <;> infer_instance

def filled (env : Text → Option Text) : List Part → Py Text
  | [] => .ok []
  | .plain t :: ps => do return t ++ (← filled env ps)
  | .opening :: ps => do return '{' :: (← filled env ps)
  | .closing :: ps => do return '}' :: (← filled env ps)
  | .field n :: ps => match env n with
    | none => .error .keyError
    | some v => do return v ++ (← filled env ps)

theorem format_plain (env : Text → Option Text) (t r : Text) (h : ∀ c ∈ t, c ≠ '{' ∧ c ≠ '}') :
    format env none (t ++ r) = (do return t ++ (← format env none r)) := by
  induction t with
  | nil => simp only [List.nil_append]; cases format env none r <;> rfl
  | cons c t ih =>
    obtain ⟨h1, h2⟩ := h c (by simp)
    have e : format env none (c :: (t ++ r)) = (do return c :: (← format env none (t ++ r))) := by
      rw [format.eq_def]
      split <;> simp_all
    rw [List.cons_append, e, ih fun x hx => h x (by simp [hx])]
    cases format env none r <;> rfl

theorem format_name (env : Text → Option Text) (n acc r : Text) (h : ∀ c ∈ n, c ≠ '{' ∧ c ≠ '}') :
    format env (some acc) (n ++ '}' :: r) = match env (acc.reverse ++ n) with
      | none => .error .keyError
      | some v => (do return v ++ (← format env none r)) := by
  induction n generalizing acc with
  | nil =>
    rw [List.nil_append, List.append_nil]
    rfl
  | cons c n ih =>
    have e : format env (some acc) (c :: (n ++ '}' :: r)) = format env (some (c :: acc)) (n ++ '}' :: r) := by
      have := (h c (by simp)).2
      rw [format.eq_def]
      split <;> simp_all
    rw [List.cons_append, e, ih _ fun x hx => h x (by simp [hx])]
    simp

theorem format_parts (env : Text → Option Text) (ps : List Part) (h : ∀ p ∈ ps, p.Proper) :
    format env none (ps.flatMap Part.text) = filled env ps := by
  induction ps with
  | nil => rfl
  | cons p ps ih =>
    have ih := ih fun x hx => h x (by simp [hx])
    have hp := h p (by simp)
    rw [List.flatMap_cons]
    cases p with
    | plain t => rw [Part.text, format_plain env t _ hp, ih]; rfl
    | opening =>
      show format env none ('{' :: '{' :: ps.flatMap Part.text) = _
      rw [format, ih]; rfl
    | closing =>
      show format env none ('}' :: '}' :: ps.flatMap Part.text) = _
      rw [format, ih]; rfl
    | field n =>
      obtain ⟨hn, hc⟩ := hp
      have e : format env none ('{' :: (n ++ '}' :: ps.flatMap Part.text)) = format env (some []) (n ++ '}' :: ps.flatMap Part.text) := by
        cases n with
        | nil => exact absurd rfl hn
        | cons c n =>
          have := (hc c (by simp)).1
          rw [List.cons_append, format.eq_def]
          split
          all_goals try (next heq => simp at heq; done)
          · next heq => simp at heq; exact absurd heq.1 this
          · next heq => cases heq; rfl
          · next h1 h2 _ heq => exact absurd (List.cons.inj heq).1.symm h2
          · next heq _ => cases heq
      have e2 : Part.text (.field n) ++ ps.flatMap Part.text = '{' :: (n ++ '}' :: ps.flatMap Part.text) := by simp [Part.text]
      rw [e2, e, format_name env n [] _ hc, ih]
      rfl

/-! The text between the fields of the template. -/

def plain1 : Text :=
  t!"#!/usr/bin/python\n" ++
  t!"# -*- coding: us-ascii -*-\n" ++
  t!"# vim: syntax=python\n" ++
  t!"#\n" ++
  t!"# Copyright 2006-2012 Noriyuki Hosaka bgnori@gmail.com\n" ++
  t!"#\n" ++
  t!"\n" ++
  t!"from setuptools import setup\n" ++
  t!"import os.path\n" ++
  t!"\n" ++
  t!"\n" ++
  t!"try:\n" ++
  t!"    # add classifiers and download_url syntax to distutils\n" ++
  t!"    from distutils.dist import DistributionMetadata\n" ++
  t!"    DistributionMetadata.classifiers = None\n" ++
  t!"    DistributionMetadata.download_url = None\n" ++
  t!"except:\n" ++
  t!"    pass\n" ++
  t!"\n" ++
  t!"setup(\n" ++
  t!"  name=\""

def plain2 : Text :=
  t!"\",\n" ++
  t!"  version=\""

def plain3 : Text :=
  t!"\n" ++
  t!"  zip_safe=False,\n" ++
  t!"  description=\"\"\""

def plain4 : Text :=
  t!"\"\"\",\n" ++
  t!"  long_description=\"\"\""

def plain5 : Text :=
  t!",\n" ++
  t!"  author=\""

def plain6 : Text :=
  t!"\",\n" ++
  t!"  author_email=\""

def plain7 : Text :=
  t!"\",\n" ++
  t!"  package_dir = "

def plain8 : Text :=
  t!"\n" ++
  t!"                 'bglib':'bglib', #root\n" ++
  t!"                 "

def plain9 : Text :=
  t!",\n" ++
  t!"  packages = ['bglib', \n" ++
  t!"              'bglib.doc', \n" ++
  t!"              'bglib.encoding', \n" ++
  t!"              'bglib.image', \n" ++
  t!"              'bglib.image.resource', \n" ++
  t!"              'bglib.model',\n" ++
  t!"              'bglib.protocol'\n" ++
  t!"              ],\n" ++
  t!"  package_data = "

def plain10 : Text :=
  t!"\n" ++
  t!"      'bglib.image.resource':[os.path.join('matrix','default.css'),\n" ++
  t!"                              os.path.join('matrix','*.png'),\n" ++
  t!"                              os.path.join('minimal','*.ttf'),\n" ++
  t!"                              os.path.join('minimal','default.css'),\n" ++
  t!"                              os.path.join('kotobuki','*.ttf'),\n" ++
  t!"                              os.path.join('kotobuki','default.css'),\n" ++
  t!"                              os.path.join('nature','*.ttf'),\n" ++
  t!"                              os.path.join('nature','default.css'),\n" ++
  t!"                              os.path.join('flower','*.ttf'),\n" ++
  t!"                              os.path.join('flower','default.css'),\n" ++
  t!"                              os.path.join('neon','*.ttf'),\n" ++
  t!"                              os.path.join('neon','default.css'),\n" ++
  t!"                              os.path.join('deutsche','*.ttf'),\n" ++
  t!"                              os.path.join('deutsche','default.css'),\n" ++
  t!"                              os.path.join('safari','default.css'),\n" ++
  t!"                              os.path.join('safari','*.jpg'),\n" ++
  t!"                              os.path.join('safari','*.png'),\n" ++
  t!"                             ],\n" ++
  t!"      "

def plain11 : Text :=
  t!",\n" ++
  t!"  py_modules=[],\n" ++
  t!"  install_requires= "

def plain12 : Text :=
  t!"\n" ++
  t!"  provides=['bglib'],\n" ++
  t!"  url=\""

def plain13 : Text :=
  t!"\",\n" ++
  t!"  license=\"proprietary\",\n" ++
  t!")\n" ++
  t!"\n"

/-- The parts of the template. -/
def parts : List Part := [
  .plain plain1, .field t!"NAME", .plain plain2, .field t!"VERSION", .plain (t!"\"," ++ plain3), .field t!"DESCRIPTION", .plain plain4, .field t!"LONG_DESCRIPTION", .plain (t!"\"\"\"" ++ plain5), .field t!"AUTHOR", .plain plain6, .field t!"AUTHOR_EMAIL", .plain plain7, .opening, .plain plain8, .closing, .plain plain9, .opening, .plain plain10, .closing, .plain plain11, .field t!"install_requires", .plain (t!"," ++ plain12), .field t!"HOMEPAGE", .plain plain13]

theorem template_parts : template = parts.flatMap Part.text := by decide +kernel

/-! ### The script -/

def partA : Text := plain1 ++ t!"python-bglib-library" ++ plain2

def partB : Text := plain3 ++ t!"backgammon programming utilities for python" ++ plain4

def partC : Text := plain5 ++ t!"Noriyuki Hosaka" ++ plain6 ++ t!"bgnori@gmail.com" ++ plain7 ++ t!"{" ++ plain8 ++ t!"}" ++ plain9 ++ t!"{" ++ plain10 ++ t!"}" ++ plain11

def partD : Text := plain12 ++ t!"https://github.com/bgnori/bglib" ++ plain13 ++ t!"\n"

theorem main_eq (f : Files) : main f = .ok (partA ++ (Doc.strip f.version ++ t!"\",") ++ partB ++ (f.description ++ t!"\"\"\"") ++
    partC ++ (reprList (readLines [] f.freeze) ++ t!",") ++ partD) := by
  rw [main, template_parts, format_parts _ _ (by decide +kernel)]
  have m1 : metadata f t!"NAME" = some t!"python-bglib-library" := rfl
  have m2 : metadata f t!"AUTHOR" = some t!"Noriyuki Hosaka" := rfl
  have m3 : metadata f t!"AUTHOR_EMAIL" = some t!"bgnori@gmail.com" := rfl
  have m4 : metadata f t!"VERSION" = some (Doc.strip f.version) := rfl
  have m5 : metadata f t!"HOMEPAGE" = some t!"https://github.com/bgnori/bglib" := rfl
  have m6 : metadata f t!"DESCRIPTION" = some t!"backgammon programming utilities for python" := rfl
  have m7 : metadata f t!"LONG_DESCRIPTION" = some f.description := rfl
  have m8 : metadata f t!"install_requires" = some (reprList (readLines [] f.freeze)) := rfl
  generalize Doc.strip f.version = v at *
  generalize f.description = d at *
  generalize reprList (readLines [] f.freeze) = r at *
  simp only [parts, filled, m1, m2, m3, m4, m5, m6, m7, m8, bind, Except.bind, pure, Except.pure]
  refine congrArg Except.ok ?_
  simp only [partA, partB, partC, partD, List.append_assoc, List.cons_append, List.nil_append]

/-! ### Words -/

theorem lex_append (m : Mode) (a b : Text) :
    lex m (a ++ b) = ((lex (lex m a).1 b).1, (lex m a).2 ++ (lex (lex m a).1 b).2) := by
  induction a generalizing m with
  | nil => rfl
  | cons c a ih => simp only [List.cons_append, lex, ih, List.append_assoc]

/-- Reading on. -/
theorem lex_then {m m' m'' : Mode} {a b : Text} {v w : List Word} (h1 : lex m a = (m', v)) (h2 : lex m' b = (m'', w)) :
    lex m (a ++ b) = (m'', v ++ w) := by
  rw [lex_append, h1, h2]

theorem ascii_cond {c : Char} (h : Ascii c) : ¬ (128 ≤ c.toNat ∨ c = '\r' ∨ c = '\x00') := by
  obtain ⟨h1, h2, h3⟩ := h
  rintro (h | h | h)
  · omega
  · exact h2 h
  · exact h3 h

theorem lex_short (acc v : Text) (h : FitsShort v) :
    lex (.inside false '"' acc 0) (v ++ t!"\",") = (.code, [.str (acc.reverse ++ v), .sign ',']) := by
  induction v generalizing acc with
  | nil => simp [lex, step, stepInside, stepCode]; decide
  | cons c v ih =>
    obtain ⟨h1, h2, h3, h4⟩ := h c (by simp)
    have e : step (.inside false '"' acc 0) c = (.inside false '"' (c :: acc) 0, []) := by
      simp only [step, if_neg (ascii_cond h1), stepInside, if_neg h2, if_neg h3, h4, false_and, if_false, List.replicate_zero, List.nil_append]
    rw [List.cons_append, lex, e]
    simp only [ih (c :: acc) fun x hx => h x (by simp [hx])]
    simp

theorem lex_version (v : Text) (h : FitsShort v) : lex (.opened '"') (v ++ t!"\",") = (.code, [.str v, .sign ',']) := by
  cases v with
  | nil => decide
  | cons c v =>
    obtain ⟨h1, h2, h3, h4⟩ := h c (by simp)
    have e : step (.opened '"') c = step (.inside false '"' [] 0) c := by
      simp only [step, if_neg (ascii_cond h1), if_neg h2]
    have := lex_short [] (c :: v) h
    rw [List.cons_append, lex] at this ⊢
    rw [e]; exact this

theorem lex_long (d : Text) : ∀ (acc : Text) (k : Nat), k ≤ 2 → (∀ c ∈ d, Ascii c ∧ c ≠ '\\') →
    (∀ a b, List.replicate k '"' ++ d ++ t!"\"\"" ≠ a ++ t!"\"\"\"" ++ b) →
    lex (.inside true '"' acc k) (d ++ t!"\"\"\"") = (.code, [.str (acc.reverse ++ List.replicate k '"' ++ d)]) := by
  induction d with
  | nil =>
    intro acc k hk _ hm
    have : k = 0 := by
      match k, hk with
      | 0, _ => rfl
      | 1, _ => exact absurd rfl (hm [] [])
      | 2, _ => exact absurd rfl (hm [] ['"'])
    subst this
    simp [lex, step, stepInside]
  | cons c d ih =>
    intro acc k hk hc hm
    obtain ⟨h1, h2⟩ := hc c (by simp)
    have hc' := fun x hx => hc x (List.mem_cons_of_mem c hx)
    rw [List.cons_append, lex]
    by_cases hq : c = '"'
    · subst hq
      have hk2 : k ≠ 2 := by
        rintro rfl
        exact hm [] (d ++ t!"\"\"") (by simp [List.replicate])
      have e : step (.inside true '"' acc k) '"' = (.inside true '"' acc (k + 1), []) := by
        simp only [step, if_neg (ascii_cond h1), stepInside, if_true, if_neg hk2]
      have hr : List.replicate (k + 1) '"' ++ d = List.replicate k '"' ++ '"' :: d := by
        rw [List.replicate_succ']; simp
      rw [e]
      simp only [ih acc (k + 1) (by omega) hc' (by rw [hr]; exact hm)]
      rw [List.append_assoc, hr]; simp
    · have e : step (.inside true '"' acc k) c = (.inside true '"' (c :: (List.replicate k '"' ++ acc)) 0, []) := by
        simp only [step, if_neg (ascii_cond h1), stepInside, if_neg hq, if_neg h2]
        rw [if_neg (by simp)]
      rw [e]
      simp only [ih _ 0 (by omega) hc' (by
        intro a b hab
        apply hm (List.replicate k '"' ++ c :: a) b
        simp only [List.replicate_zero, List.nil_append] at hab
        simp [hab])]
      simp

theorem lex_description (d : Text) (h : FitsLong d) : lex (.inside true '"' [] 0) (d ++ t!"\"\"\"") = (.code, [.str d]) := by
  have := lex_long d [] 0 (by omega) h.1 (by simpa using h.2)
  simpa using this

/-! ### Strings as `repr` shows them -/

theorem hexValue_hexChar : ∀ n < 16, hexValue (hexChar n) = some n ∧ ¬ (128 ≤ (hexChar n).toNat ∨ hexChar n = '\r' ∨ hexChar n = '\x00') := by
  decide

theorem lex_reprChar (q c : Char) (hq : q = '"' ∨ q = '\'') (hc : c.toNat < 256) (acc : Text) :
    lex (.inside false q acc 0) (reprChar q c) = (.inside false q (c :: acc) 0, []) := by
  have hqb : '\\' ≠ q := by rcases hq with rfl | rfl <;> decide
  have hb : step (.inside false q acc 0) '\\' = (.escape false q acc, []) := by
    simp only [step, stepInside, if_neg hqb, List.replicate_zero, List.nil_append]
    rfl
  have esc : ∀ x : Char, Ascii x → ∀ m, stepEscape false q acc x = m → lex (.inside false q acc 0) ['\\', x] = (m, []) := by
    intro x hx m hm
    rw [lex, hb, lex]
    simp only [step, if_neg (ascii_cond hx), hm, lex, List.append_nil]
  unfold reprChar
  split
  · next h =>
    rcases h with rfl | rfl
    · apply esc
      · rcases hq with rfl | rfl <;> exact ⟨by decide, by decide, by decide⟩
      · rcases hq with rfl | rfl <;> rfl
    · exact esc _ ⟨by decide, by decide, by decide⟩ _ rfl
  · next h1 =>
    split
    · next h => subst h; exact esc _ ⟨by decide, by decide, by decide⟩ _ rfl
    · split
      · next h => subst h; exact esc _ ⟨by decide, by decide, by decide⟩ _ rfl
      · next h3 =>
        split
        · next h => subst h; exact esc _ ⟨by decide, by decide, by decide⟩ _ rfl
        · next h4 =>
          split
          · obtain ⟨a1, a2⟩ := hexValue_hexChar (c.toNat / 16) (by omega)
            obtain ⟨b1, b2⟩ := hexValue_hexChar (c.toNat % 16) (by omega)
            have hx : step (.escape false q acc) 'x' = (.hex false q acc none, []) := by rfl
            have h1' : step (.hex false q acc none) (hexChar (c.toNat / 16)) = (.hex false q acc (some (c.toNat / 16)), []) := by
              simp only [step, if_neg a2, a1]
            have h2' : step (.hex false q acc (some (c.toNat / 16))) (hexChar (c.toNat % 16)) = (.inside false q (c :: acc) 0, []) := by
              simp only [step, if_neg b2, b1]
              rw [Nat.div_add_mod, Char.ofNat_toNat]
            simp only [lex, hb, hx, h1', h2', List.append_nil]
          · next h5 =>
            rw [not_or] at h1 h5
            have ha : Ascii c := ⟨by omega, h4, by rintro rfl; exact h5.1 (by decide)⟩
            simp only [lex, step, if_neg (ascii_cond ha), stepInside, if_neg h1.1, if_neg h1.2, h3, false_and, if_false,
              List.replicate_zero, List.nil_append, List.append_nil]

theorem lex_reprChars (q : Char) (hq : q = '"' ∨ q = '\'') (t : Text) (hc : ∀ c ∈ t, c.toNat < 256) (acc : Text) :
    lex (.inside false q acc 0) (t.flatMap (reprChar q)) = (.inside false q (t.reverse ++ acc) 0, []) := by
  induction t generalizing acc with
  | nil => rfl
  | cons c t ih =>
    rw [List.flatMap_cons, lex_then (lex_reprChar q c hq (hc c (by simp)) acc) (ih (fun x hx => hc x (by simp [hx])) (c :: acc))]
    simp

/-- What comes first in a string is not the mark. -/
theorem opened_eq (q : Char) (hq : q = '"' ∨ q = '\'') (c : Char) (r : Text) :
    lex (.opened q) (reprChar q c ++ r) = lex (.inside false q [] 0) (reprChar q c ++ r) := by
  have hqb : '\\' ≠ q := by rcases hq with rfl | rfl <;> decide
  have key : ∀ x : Char, x ≠ q → ∀ r, lex (.opened q) (x :: r) = lex (.inside false q [] 0) (x :: r) := by
    intro x hx r
    have : step (.opened q) x = step (.inside false q [] 0) x := by
      unfold step
      simp only [if_neg hx]
    rw [lex, lex, this]
  unfold reprChar
  split
  · exact key _ hqb _
  · next h1 =>
    rw [not_or] at h1
    (repeat' split) <;> first | exact key _ hqb _ | exact key _ h1.1 _

theorem lex_reprText (t : Text) (hc : ∀ c ∈ t, c.toNat < 256) (s : Char) (hs : s = ',' ∨ s = ']') :
    lex .code (reprText t ++ [s]) = (.code, [.str t, .sign s]) := by
  unfold reprText
  generalize hq : (if '\'' ∈ t ∧ '"' ∉ t then '"' else '\'') = q
  have hq' : q = '"' ∨ q = '\'' := by
    rw [← hq]; split
    · exact Or.inl rfl
    · exact Or.inr rfl
  have h0 : step .code q = (.opened q, []) := by rcases hq' with rfl | rfl <;> rfl
  have hsq : s ≠ q := by rcases hq' with rfl | rfl <;> rcases hs with rfl | rfl <;> decide
  have hs1 : step .code s = (.code, [.sign s]) := by rcases hs with rfl | rfl <;> rfl
  have hs2 : step (.twice q) s = (.code, [.str [], .sign s]) := by
    rcases hq' with rfl | rfl <;> rcases hs with rfl | rfl <;> rfl
  have hq2 : step (.opened q) q = (.twice q, []) := by rcases hq' with rfl | rfl <;> rfl
  have hq3 : ∀ acc, step (.inside false q acc 0) q = (.code, [.str acc.reverse]) := by
    intro acc; rcases hq' with rfl | rfl <;> rfl
  cases t with
  | nil =>
    simp only [List.flatMap_nil, List.cons_append, List.nil_append, lex, h0, hq2, hs2, List.append_nil]
  | cons c t =>
    have e : (q :: List.flatMap (reprChar q) (c :: t) ++ [q]) ++ [s] = q :: (reprChar q c ++ (List.flatMap (reprChar q) t ++ [q, s])) := by
      simp
    rw [e, lex, h0]
    simp only [List.nil_append]
    rw [opened_eq q hq' c, ← List.append_assoc, ← List.flatMap_cons,
      lex_then (lex_reprChars q hq' (c :: t) hc []) (show lex _ [q, s] = (.code, [.str (c :: t), .sign s]) by
        simp only [lex, hq3, hs1, List.append_nil]
        simp)]
    rfl

theorem lex_rest (xs : List Text) (hc : ∀ x ∈ xs, ∀ c ∈ x, c.toNat < 256) :
    ∀ x : Text, (∀ c ∈ x, c.toNat < 256) →
    lex .code (reprText x ++ (xs.flatMap fun y => t!", " ++ reprText y) ++ t!"]") =
      (.code, List.intersperse (.sign ',') ((x :: xs).map .str) ++ [.sign ']']) := by
  induction xs with
  | nil => intro x hx; simpa using lex_reprText x hx ']' (Or.inr rfl)
  | cons y xs ih =>
    intro x hx
    have e : reprText x ++ ((y :: xs).flatMap fun y => t!", " ++ reprText y) ++ t!"]" =
        (reprText x ++ [',']) ++ (t!" " ++ (reprText y ++ (xs.flatMap fun y => t!", " ++ reprText y) ++ t!"]")) := by
      simp
    rw [e, lex_then (lex_reprText x hx ',' (Or.inl rfl)) (lex_then (show lex .code t!" " = (.code, []) from rfl)
      (ih (fun z hz => hc z (by simp [hz])) y (hc y (by simp))))]
    rfl

theorem lex_reprList (l : List Text) (hc : ∀ x ∈ l, ∀ c ∈ x, c.toNat < 256) :
    lex .code (reprList l ++ t!",") = (.code, strings l ++ [.sign ',']) := by
  have h1 : lex .code t!"," = (.code, [.sign ',']) := rfl
  cases l with
  | nil => rfl
  | cons x xs =>
    refine lex_then ?_ h1
    have := lex_rest xs (fun z hz => hc z (by simp [hz])) x (hc x (by simp))
    have e : reprList (x :: xs) = t!"[" ++ (reprText x ++ (xs.flatMap fun y => t!", " ++ reprText y) ++ t!"]") := by
      simp [reprList]
    rw [e, lex_then (show lex .code t!"[" = (.code, [.sign '[']) from rfl) this]
    rfl

theorem readLines_spec (t acc : Text) (ha : '\n' ∉ acc) : (readLines acc t).flatten = acc.reverse ++ t ∧
    ∀ l ∈ readLines acc t, '\n' ∉ l.dropLast ∧ l ≠ [] := by
  induction t generalizing acc with
  | nil =>
    rw [readLines]
    split
    · next h => subst h; simp
    · next h =>
      refine ⟨by simp, ?_⟩
      intro l hl
      rw [List.mem_singleton] at hl
      subst hl
      exact ⟨fun hm => ha (by simpa using (List.dropLast_sublist _).subset hm), by simpa using h⟩
  | cons c t ih =>
    rw [readLines]
    split
    · next h =>
      obtain ⟨i1, i2⟩ := ih [] (by simp)
      refine ⟨by simp [i1], ?_⟩
      intro l hl
      rw [List.mem_cons] at hl
      rcases hl with rfl | hl
      · simp [ha]
      · exact i2 l hl
    · next h =>
      obtain ⟨i1, i2⟩ := ih (c :: acc) (by simp [ha, Ne.symm h])
      exact ⟨by simp [i1], i2⟩

/-! ### Arguments -/

theorem called_append (a b r : List Word) (h : called a = some r) : called (a ++ b) = some (r ++ b) := by
  induction a with
  | nil => simp [called] at h
  | cons w a ih =>
    rw [called.eq_def] at h
    split at h
    · next n r' heq =>
      obtain ⟨rfl, rfl⟩ := List.cons.inj heq
      split at h
      · next hn =>
        have := Option.some.inj h
        subst this
        simp only [List.cons_append, called, if_pos hn]
      · next hn =>
        simp only [List.cons_append, called, if_neg hn]
        simpa [called] using ih h
    · next w' r' hne heq =>
      obtain ⟨rfl, rfl⟩ := List.cons.inj heq
      have := ih h
      rw [List.cons_append, called.eq_def]
      split
      · next n r2 heq2 =>
        obtain ⟨rfl, h2⟩ := List.cons.inj heq2
        cases a with
        | nil => simp [called] at h
        | cons x a =>
          rw [List.cons_append] at h2
          obtain ⟨rfl, rfl⟩ := List.cons.inj h2
          exact absurd rfl (hne n a rfl)
      · next w2 r2 hne2 heq2 =>
        obtain ⟨rfl, rfl⟩ := List.cons.inj heq2
        exact this
      · next heq2 => cases heq2
    · next heq => cases heq

theorem scan_append (p : Spot) (a b : List Word) :
    scan p (a ++ b) = ((scan (scan p a).1 b).1, (scan p a).2 ++ (scan (scan p a).1 b).2) := by
  induction a generalizing p with
  | nil => rfl
  | cons w a ih => simp only [List.cons_append, scan, ih, List.append_assoc]

theorem scan_then {p p' p'' : Spot} {a b : List Word} {v w : List (List Word)} (h1 : scan p a = (p', v)) (h2 : scan p' b = (p'', w)) :
    scan p (a ++ b) = (p'', v ++ w) := by
  rw [scan_append, h1, h2]

theorem scan_items (l : List Text) (d : Nat) (arg : List Word) :
    scan (.within (d + 1) arg) (List.intersperse (.sign ',') (l.map .str)) =
      (.within (d + 1) (arg ++ List.intersperse (.sign ',') (l.map .str)), []) := by
  have hs : ∀ arg t, next (.within (d + 1) arg) (.str t) = (.within (d + 1) (arg ++ [.str t]), []) := by
    intro arg t; simp [next, opens, closes]
  have hc : ∀ arg, next (.within (d + 1) arg) (.sign ',') = (.within (d + 1) (arg ++ [.sign ',']), []) := by
    intro arg; simp [next, opens, closes]
  induction l generalizing arg with
  | nil => simp [scan]
  | cons x l ih =>
    cases l with
    | nil => simp [scan, hs]
    | cons y l =>
      have e : List.intersperse (Word.sign ',') ((x :: y :: l).map .str) = .str x :: .sign ',' :: List.intersperse (.sign ',') ((y :: l).map .str) := rfl
      rw [e, scan, hs, scan]
      simp only [hc, ih]
      simp

theorem scan_strings (l : List Text) (arg : List Word) :
    scan (.within 0 arg) (strings l ++ [.sign ',']) = (.within 0 [], [arg ++ strings l]) := by
  have e : strings l ++ [.sign ','] = [.sign '['] ++ (List.intersperse (.sign ',') (l.map .str) ++ [.sign ']', .sign ',']) := by
    simp [strings]
  have h1 : scan (.within 0 arg) [.sign '['] = (.within 1 (arg ++ [.sign '[']), []) := rfl
  rw [e, scan_then h1 (scan_then (scan_items l 0 _) (show scan _ [.sign ']', .sign ','] =
    (.within 0 [], [(arg ++ [.sign '['] ++ List.intersperse (.sign ',') (l.map .str)) ++ [.sign ']']]) from rfl))]
  simp [strings]

/-! ### All together -/

theorem mapM_toWords (l : List (Text × List Word)) : ((l.map toWords).mapM fun arg =>
    match arg with
    | .name n :: .sign '=' :: v => some (n, v)
    | _ => none) = some l := by
  induction l with
  | nil => rfl
  | cons a l ih => simp only [List.map_cons, List.mapM_cons, ih, toWords]; rfl

theorem words_with (f : Files) (hv : FitsShort (Doc.strip f.version)) (hq : ∀ c ∈ f.freeze, c.toNat < 256) (w : Text)
    (hd : lex (.inside true '"' [] 0) (f.description ++ t!"\"\"\"") = (.code, [.str w])) :
    lex .code (partA ++ (Doc.strip f.version ++ t!"\",") ++ partB ++ (f.description ++ t!"\"\"\"") ++
      partC ++ (reprList (readLines [] f.freeze) ++ t!",") ++ partD) =
    (.code, (lex .code partA).2 ++ [.str (Doc.strip f.version), .sign ','] ++ (lex .code partB).2 ++ [.str w] ++
      (lex .code partC).2 ++ (strings (readLines [] f.freeze) ++ [.sign ',']) ++ (lex .code partD).2) := by
  have key : ∀ (t : Text) (m : Mode), (lex .code t).1 = m → lex .code t = (m, (lex .code t).2) := by
    intro t m h; rw [← h]
  have a := key partA (.opened '"') (by decide +kernel)
  have b := key partB (.inside true '"' [] 0) (by decide +kernel)
  have c := key partC .code (by decide +kernel)
  have d := key partD .code (by decide +kernel)
  have hl : ∀ x ∈ readLines [] f.freeze, ∀ c ∈ x, c.toNat < 256 := by
    intro x hx c hc
    apply hq
    have := (readLines_spec f.freeze [] (by simp)).1
    rw [List.reverse_nil, List.nil_append] at this
    rw [← this, List.mem_flatten]
    exact ⟨x, hx, hc⟩
  exact lex_then (lex_then (lex_then (lex_then (lex_then (lex_then a (lex_version _ hv)) b)
    hd) c) (lex_reprList _ hl)) d

theorem words_of (f : Files) (hf : Fits f) :
    lex .code (partA ++ (Doc.strip f.version ++ t!"\",") ++ partB ++ (f.description ++ t!"\"\"\"") ++
      partC ++ (reprList (readLines [] f.freeze) ++ t!",") ++ partD) =
    (.code, (lex .code partA).2 ++ [.str (Doc.strip f.version), .sign ','] ++ (lex .code partB).2 ++ [.str f.description] ++
      (lex .code partC).2 ++ (strings (readLines [] f.freeze) ++ [.sign ',']) ++ (lex .code partD).2) :=
  words_with f hf.version hf.freeze _ (lex_description _ hf.description)

theorem lex_bad (t : Text) : lex .bad t = (.bad, []) := by
  induction t with
  | nil => rfl
  | cons c r ih =>
    have h : step .bad c = (.bad, []) := by
      unfold step
      split <;> rfl
    rw [lex, h, ih]
    rfl

/-- A string that is opened behind the description is not closed before the end of the line. -/
theorem words_bad (f : Files) (hv : FitsShort (Doc.strip f.version)) (ws : List Word)
    (hd : lex (.inside true '"' [] 0) (f.description ++ t!"\"\"\"") = (.opened '"', ws)) :
    words (partA ++ (Doc.strip f.version ++ t!"\",") ++ partB ++ (f.description ++ t!"\"\"\"") ++
      partC ++ (reprList (readLines [] f.freeze) ++ t!",") ++ partD) = none := by
  have key : ∀ (t : Text) (n m : Mode), (lex n t).1 = m → lex n t = (m, (lex n t).2) := by
    intro t n m h; rw [← h]
  have a := key partA .code (.opened '"') (by decide +kernel)
  have b := key partB .code (.inside true '"' [] 0) (by decide +kernel)
  have c := key partC (.opened '"') .bad (by decide +kernel)
  unfold words
  rw [lex_then (lex_then (lex_then (lex_then (lex_then (lex_then a (lex_version _ hv)) b) hd) c) (lex_bad _)) (lex_bad _)]

theorem arguments_of (v d : Text) (ls : List Text) : ∃ r,
    called ((lex .code partA).2 ++ [.str v, .sign ','] ++ (lex .code partB).2 ++ [.str d] ++
      (lex .code partC).2 ++ (strings ls ++ [.sign ',']) ++ (lex .code partD).2) = some r ∧
    scan (.within 0 []) r = (.behind, (intended v d ls).map toWords) := by
  have hA : called (lex .code partA).2 = some [.name t!"name", .sign '=', .str t!"python-bglib-library", .sign ',', .name t!"version", .sign '='] := by
    decide +kernel
  refine ⟨_, by
    simp only [List.append_assoc]
    exact called_append _ _ _ hA, ?_⟩
  have sA : scan (.within 0 []) [.name t!"name", .sign '=', .str t!"python-bglib-library", .sign ',', .name t!"version", .sign '='] =
      (.within 0 [.name t!"version", .sign '='], [toWords (t!"name", [.str t!"python-bglib-library"])]) := by decide +kernel
  have sv : scan (.within 0 [.name t!"version", .sign '=']) [.str v, .sign ','] = (.within 0 [], [toWords (t!"version", [.str v])]) := rfl
  have sB : scan (.within 0 []) (lex .code partB).2 = (.within 0 [.name t!"long_description", .sign '='],
      [toWords (t!"zip_safe", [.name t!"False"]), toWords (t!"description", [.str t!"backgammon programming utilities for python"])]) := by
    decide +kernel
  have eC : (lex .code partC).2 = .sign ',' :: (lex .code partC).2.drop 1 := by decide +kernel
  have sd : scan (.within 0 [.name t!"long_description", .sign '=']) [.str d, .sign ','] =
      (.within 0 [], [toWords (t!"long_description", [.str d])]) := rfl
  have sC : scan (.within 0 []) ((lex .code partC).2.drop 1) = (.within 0 [.name t!"install_requires", .sign '='],
      (((intended [] [] []).drop 5).take 6).map toWords) := by decide +kernel
  have sD : scan (.within 0 []) (lex .code partD).2 = (.behind, ((intended [] [] []).drop 12).map toWords) := by decide +kernel
  have := scan_then (scan_then (scan_then (scan_then (scan_then (scan_then sA sv) sB) sd) sC) (scan_strings ls _)) sD
  have e : [.name t!"name", .sign '=', .str t!"python-bglib-library", .sign ',', .name t!"version", .sign '='] ++ [.str v, .sign ','] ++
      (lex .code partB).2 ++ [.str d, .sign ','] ++ (lex .code partC).2.drop 1 ++ (strings ls ++ [.sign ',']) ++ (lex .code partD).2 =
      [.name t!"name", .sign '=', .str t!"python-bglib-library", .sign ',', .name t!"version", .sign '='] ++ ([.str v, .sign ','] ++
      ((lex .code partB).2 ++ ([.str d] ++ ((lex .code partC).2 ++ ((strings ls ++ [.sign ',']) ++ (lex .code partD).2))))) := by
    conv => rhs; rw [eC]
    simp only [List.append_assoc, List.cons_append, List.nil_append]
  rw [e] at this
  simp only [List.append_assoc] at this ⊢
  rw [this]
  rfl

end Bglib.Spec.Setup
