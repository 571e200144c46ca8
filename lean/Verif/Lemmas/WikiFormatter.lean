import Verif.Lemmas.WikiLinks
import Verif.Model.WikiFormatter
/-
HTML depends on the nodes and what is kept beside them only.
-/
namespace Bglib
open Spec Doc

theorem visited_congr {e e' : Editor} (h : e.nodes = e'.nodes) (fuel i : Nat) : e.visited fuel i = e'.visited fuel i := by
  induction fuel generalizing i with
  | zero => rfl
  | succ fuel ih =>
    unfold Editor.visited
    rw [h]
    have : e.visited fuel = e'.visited fuel := funext ih
    rw [this]

theorem deAnchor_congr {e e' : Editor} (h : e.nodes = e'.nodes) : e.deAnchor = e'.deAnchor := by
  funext i
  unfold Editor.deAnchor
  rw [h]

theorem toc_congr {e e' : Editor} (h : e.nodes = e'.nodes) : tocHtml e = tocHtml e' := by
  have : e.headings = e'.headings := by
    unfold Editor.headings
    rw [h, visited_congr h, deAnchor_congr h]
  unfold tocHtml
  rw [this]

theorem accept_congr {w w' : Wiki} (env : Env) (h : w.doc.nodes = w'.doc.nodes) (hx : ∀ i, w.extra i = w'.extra i)
    (fuel i : Nat) : w.accept env fuel i = w'.accept env fuel i := by
  induction fuel generalizing i with
  | zero => rfl
  | succ fuel ih =>
    have : w.accept env fuel = w'.accept env fuel := funext ih
    unfold Wiki.accept Wiki.opens Wiki.closes
    rw [h, this, hx i, toc_congr h]

theorem html_congr {w w' : Wiki} (env : Env) (h : w.doc.nodes = w'.doc.nodes) (hx : ∀ i, w.extra i = w'.extra i) :
    w.html env = w'.html env := by
  unfold Wiki.html
  rw [h, accept_congr env h hx]

theorem withTexts_extra (w : Wiki) (g : Nat → Text) (i : Nat) :
    (w.withTexts g).extra i = (w.extra i).map (Extra.withText (g i)) := by
  unfold Wiki.extra Wiki.withTexts
  dsimp only
  induction w.side with
  | nil => rfl
  | cons x l ih =>
    rw [List.map_cons, List.find?_cons, List.find?_cons]
    by_cases hx : x.1 = i
    · simp [hx]
    · simp only [hx, decide_false]
      exact ih

theorem extra_mem {w : Wiki} {i : Nat} {x : Extra} (h : w.extra i = some x) : (i, x) ∈ w.side := by
  unfold Wiki.extra at h
  obtain ⟨y, h1, h2⟩ := Option.map_eq_some_iff.1 h
  have h3 := List.find?_some h1
  have h4 := List.mem_of_find?_eq_some h1
  have : y.1 = i := by simpa using h3
  rw [← this, ← h2]
  exact h4

/-- The first time the texts of the blocks are what has been collected. -/
theorem first_extra (w : Wiki) (ls : Option Wiki) (i : Nat) :
    (w.withTexts (Formatter.texts ⟨w, ls, fun _ => []⟩)).extra i = w.extra i := by
  rw [withTexts_extra]
  unfold Formatter.texts
  dsimp only
  cases hx : w.extra i with
  | none => rfl
  | some x => cases x <;> simp [Extra.withText]

theorem plain_extra (w : Wiki) (g : Nat → Text) (h : ∀ i b r, (i, .block b r) ∉ w.side) (i : Nat) :
    (w.withTexts g).extra i = w.extra i := by
  rw [withTexts_extra]
  cases hx : w.extra i with
  | none => rfl
  | some x =>
    cases x with
    | block b r => exact absurd (extra_mem hx) (h i b r)
    | _ => rfl


theorem splitLines_append (n : Nat) (acc a b : Text) (hn : a.length ≤ n) :
    splitLines acc (a ++ '\n' :: b) = splitLines acc (a ++ ['\n']) ++ splitLines [] b := by
  induction n generalizing acc a with
  | zero =>
    have : a = [] := List.length_eq_zero_iff.1 (by omega)
    subst this
    simp [splitLines]
  | succ n ih =>
    match a with
    | [] => simp [splitLines]
    | ['\r'] => simp [splitLines]
    | '\r' :: '\n' :: r =>
      simp only [List.cons_append, splitLines, ih [] r (by simp at hn; omega)]
    | '\n' :: r => simp only [List.cons_append, splitLines, ih [] r (by simp at hn; omega)]
    | c :: r =>
      by_cases hr : c = '\r'
      · subst hr
        match r with
        | [] => simp [splitLines]
        | d :: r =>
          by_cases hd : d = '\n'
          · subst hd
            simp only [List.cons_append, splitLines, ih [] r (by simp at hn; omega)]
          · have h := ih [] (d :: r) (by simp at hn ⊢; omega)
            simp only [List.cons_append] at h ⊢
            rw [splitLines, splitLines, h]
            · rfl
            · simpa using hd
            · simpa using hd
      · by_cases hc : c = '\n'
        · subst hc
          simp only [List.cons_append, splitLines, ih [] r (by simp at hn; omega)]
        · have h := ih (c :: acc) r (by simp at hn; omega)
          simp only [List.cons_append]
          rw [splitLines, splitLines, h] <;> simp [hc, hr]

theorem lines_append (w : Wiki) (env : Env) (a b : List Text) :
    w.lines env (a ++ b) = (do (← w.lines env a).lines env b) := by
  induction a generalizing w with
  | nil => rfl
  | cons l a ih =>
    simp only [List.cons_append, Wiki.lines]
    cases w.line env l with
    | error e => rfl
    | ok w => exact ih w

end Bglib
