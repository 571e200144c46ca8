import Verif.Spec.Markup
/-
C119: formatters of other markup give all their text to the converter, and the tests for formatters tell them apart
from other objects.
-/
namespace Bglib
open Spec Markup

private theorem mkdn_all {σ : Type} (convert : σ → Text → Py Text × σ) : ∀ (us : List Use) (f : Mkdn σ),
    mkdnHtml convert f us = conversions convert f.md (toConvert f.text us)
  | [], _ => rfl
  | .parse t :: us, f => by simp only [mkdnHtml, toConvert]; exact mkdn_all convert us _
  | .html :: us, f => by
    simp only [mkdnHtml, toConvert, conversions, Mkdn.makeHtml]
    exact congrArg _ (mkdn_all convert us _)
  | .pdf :: us, f => by simp only [mkdnHtml, toConvert]; exact mkdn_all convert us f

/-- However texts are given in parts and HTML is asked for in between, each time the converter of Markdown is given
exactly all texts given before, one after the other; what it answers or raises is passed on. -/
theorem C119_mkdn {σ : Type} (convert : σ → Text → Py Text × σ) (md : σ) (us : List Use) :
    mkdnHtml convert (Mkdn.new md) us = conversions convert md (toConvert [] us) :=
  mkdn_all convert us _

/- Two parts make one word; asking twice gives it twice, with a converter that counts. -/
example : mkdnHtml (fun n t => (.ok (t ++ [Char.ofNat (48 + n)]), n + 1)) (Mkdn.new 0)
    [.parse t!"*ho", .parse t!"ge*", .html, .pdf, .html, .parse t!"!", .html] =
    [.ok t!"*hoge*0", .ok t!"*hoge*1", .ok t!"*hoge*!2"] := rfl

private theorem rst_body (publish : Publish) (f : Rst) : f.makeHtml publish = bodyOf publish f.text := by
  simp only [Rst.makeHtml, htmlBody, htmlParts, bodyOf, bind, Except.bind]
  cases publish ⟨t!"html", t!"us-ascii", 1, 1⟩ f.text <;> rfl

private theorem rst_all (publish : Publish) : ∀ (us : List Use) (f : Rst),
    rstHtml publish f us = (toConvert f.text us).map (bodyOf publish)
  | [], _ => rfl
  | .parse t :: us, f => by simp only [rstHtml, toConvert]; exact rst_all publish us _
  | .html :: us, f => by
    simp only [rstHtml, toConvert, List.map_cons, rst_body]
    exact congrArg _ (rst_all publish us f)
  | .pdf :: us, f => by simp only [rstHtml, toConvert]; exact rst_all publish us f

/-- Likewise for reStructuredText: the HTML is each time the body docutils makes of all texts given before; asking for
it changes nothing. -/
theorem C119_rst (publish : Publish) (us : List Use) :
    rstHtml publish Rst.new us = (toConvert [] us).map (bodyOf publish) :=
  rst_all publish us _

example : rstHtml (fun _ t => if t = [] then .ok [] else .ok [(t!"title", []), (t!"html_body", t!"<p>" ++ t ++ t!"</p>")])
    Rst.new [.html, .parse t!"ho", .parse t!"ge", .html, .html] =
    [.error .keyError, .ok t!"<p>hoge</p>", .ok t!"<p>hoge</p>"] := by decide +kernel

private theorem tests_eq : formatterTests = [
    (t!"instance_viewer_test", [.isA viewer]),
    (t!"has_make_html_test", [.has t!"make_html", .callable t!"make_html"]),
    (t!"has_make_pdf_test", [.has t!"make_pdf", .callable t!"make_pdf"]),
    (t!"instance_formatter_test", [.isA formatter]),
    (t!"call_make_html_test", [.text t!"make_html"]),
    (t!"call_make_pdf_test", [.text t!"make_pdf"])] := by
  simp [formatterTests, viewerTests, Body.over, viewerBody, formatterBody, Body.set]

private theorem line_trans {k : Klass} : formatter ∈ k.line → viewer ∈ k.line := by
  induction k with
  | object => intro h; simp [Klass.line, formatter] at h
  | sub n as b ih =>
    intro h
    rcases List.mem_cons.1 h with h | h
    · rw [← h]; decide +kernel
    · exact List.mem_cons_of_mem _ (ih h)

private theorem holds_text {o : Obj} {n : Text} : (Ask.text n).holds o = true ↔ o.get n = some (.method .text) := by
  simp only [Ask.holds]
  split <;> simp_all

/-- The tests that are run pass exactly for objects of a class that descends from `Formatter` whose methods
`make_html` and `make_pdf` give texts: of three methods only two are looked at. -/
theorem C119_tests (o : Obj) : formatterTests.passes o = true ↔
    formatter ∈ o.klass.line ∧ o.get t!"make_html" = some (.method .text) ∧
      o.get t!"make_pdf" = some (.method .text) := by
  rw [tests_eq]
  simp only [Body.passes, List.all_cons, List.all_nil, Bool.and_true, Bool.and_eq_true, holds_text]
  constructor
  · rintro ⟨-, -, -, h1, h2, h3⟩
    exact ⟨by simpa [Ask.holds, Obj.isA] using h1, h2, h3⟩
  · rintro ⟨h1, h2, h3⟩
    refine ⟨?_, ?_, ?_, ?_, h2, h3⟩
    · simpa [Ask.holds, Obj.isA] using line_trans h1
    · simp [Ask.holds, h2]
    · simp [Ask.holds, h3]
    · simpa [Ask.holds, Obj.isA] using h1

/- One that passes and one that does not: the class `Formatter` itself gives no texts. -/
example : formatterTests.passes (rstObj (.ok [])) = true ∧ formatterTests.passes ⟨formatter, []⟩ = false := by
  decide +kernel

private theorem get_method {k : Klass} {n : Text}
    (hk : ∀ m as b, Klass.sub m as b ∈ k.line → as.lookup n ≠ some .value) :
    ∀ a, k.get n = some a → ∃ r, a = .method r := by
  induction k with
  | object => intro a h; cases h
  | sub m as b ih =>
    intro a h
    simp only [Klass.get] at h
    cases e : as.lookup n with
    | none =>
      rw [e] at h
      exact ih (fun m' as' b' hm => hk m' as' b' (List.mem_cons_of_mem _ hm)) a h
    | some x =>
      rw [e] at h
      obtain rfl : x = a := by simpa using h
      cases x with
      | method r => exact ⟨r, rfl⟩
      | value => exact absurd e (hk m as b (by simp [Klass.line]))

private theorem get_some {k : Klass} (h : formatter ∈ k.line) : (k.get t!"parse").isSome := by
  induction k with
  | object => simp [Klass.line, formatter] at h
  | sub m as b ih =>
    rcases List.mem_cons.1 h with h | h
    · rw [← h]; decide +kernel
    · simp only [Klass.get]
      cases as.lookup t!"parse" with
      | none => exact ih h
      | some x => rfl

/-- Formatters pass, and what passes is a formatter if neither the object nor a class it descends from has `parse` for
something that cannot be called (then `parse` is inherited at least).  Missing: see `C119_false`. -/
theorem C119_tests_partial (o : Obj) :
    (IsFormatter o → formatterTests.passes o = true) ∧
    (formatterTests.passes o = true → o.own.lookup t!"parse" ≠ some .value →
      (∀ m as b, Klass.sub m as b ∈ o.klass.line → as.lookup t!"parse" ≠ some .value) → IsFormatter o) := by
  constructor
  · rintro ⟨h1, -, h3, h4⟩
    exact (C119_tests o).2 ⟨h1, h3, h4⟩
  · intro hp ho hk
    obtain ⟨h1, h3, h4⟩ := (C119_tests o).1 hp
    refine ⟨h1, ?_, h3, h4⟩
    unfold CanCall Obj.get
    cases e : o.own.lookup t!"parse" with
    | some x =>
      cases x with
      | method r => exact ⟨r, rfl⟩
      | value => exact absurd e ho
    | none =>
      obtain ⟨a, ha⟩ := Option.isSome_iff_exists.1 (get_some h1)
      obtain ⟨r, rfl⟩ := get_method hk a ha
      exact ⟨r, ha⟩

/- The wiki formatter has its own `parse`. -/
example : IsFormatter wikiObj :=
  (C119_tests_partial wikiObj).2 (by decide +kernel) (by decide +kernel) (by
    intro m as b h
    simp only [wikiObj, wikiBase, formatter, viewer, Klass.line, List.mem_cons, Klass.sub.injEq, List.not_mem_nil,
      or_false, reduceCtorEq] at h
    rcases h with ⟨-, rfl, -⟩ | ⟨-, rfl, -⟩ | ⟨-, rfl, -⟩ | ⟨-, rfl, -⟩ <;> decide +kernel)

/-- The tests do not tell formatters apart from other objects: the test for `parse` has the same name as the one
for `make_html` behind it, which takes its place, so that something without a `parse` that can be called passes.  The
test as written would fail. -/
theorem C119_false : ∃ o : Obj, formatterTests.passes o = true ∧ ¬ IsFormatter o ∧
    ∃ t ∈ viewerBody, t ∉ viewerTests ∧ t.2.all (Ask.holds o) = false := by
  refine ⟨⟨.sub t!"Broken" [(t!"parse", .value)] wikiBase, []⟩, by decide +kernel, ?_, ?_⟩
  · rintro ⟨-, ⟨a, ha⟩, -⟩
    exact absurd ha (by
      have : Obj.get ⟨.sub t!"Broken" [(t!"parse", .value)] wikiBase, []⟩ t!"parse" = some .value := by decide +kernel
      rw [this]; simp)
  · refine ⟨(t!"has_make_html_test", [.has t!"parse", .callable t!"parse"]), by simp [viewerBody], ?_, by decide +kernel⟩
    simp [viewerTests, Body.over, viewerBody, Body.set]

/-- The formatters of the library pass, those of other markup if the converter takes the empty text; a formatter whose
converter raises for it does not. -/
theorem C119_shipped {σ : Type} (convert : σ → Text → Py Text × σ) (md : σ) (publish : Publish) :
    formatterTests.passes wikiObj = true ∧
    (formatterTests.passes (mkdnObj ((Mkdn.new md).makeHtml convert).1) = true ↔ ∃ t, (convert md []).1 = .ok t) ∧
    (formatterTests.passes (rstObj (Rst.new.makeHtml publish)) = true ↔ ∃ t, bodyOf publish [] = .ok t) := by
  refine ⟨by decide +kernel, ?_, ?_⟩
  · change formatterTests.passes (mkdnObj (convert md []).1) = true ↔ _
    cases (convert md []).1 with
    | ok t => exact ⟨fun _ => ⟨t, rfl⟩, fun _ => by change formatterTests.passes (mkdnObj (.ok [])) = true; decide +kernel⟩
    | error e =>
      refine ⟨fun h => ?_, fun ⟨t, h⟩ => by cases h⟩
      have : formatterTests.passes (mkdnObj (.error .keyError)) = true := h
      exact absurd this (by decide +kernel)
  · rw [rst_body]
    change formatterTests.passes (rstObj (bodyOf publish [])) = true ↔ _
    cases bodyOf publish [] with
    | ok t => exact ⟨fun _ => ⟨t, rfl⟩, fun _ => by change formatterTests.passes (rstObj (.ok [])) = true; decide +kernel⟩
    | error e =>
      refine ⟨fun h => ?_, fun ⟨t, h⟩ => by cases h⟩
      have : formatterTests.passes (rstObj (.error .keyError)) = true := h
      exact absurd this (by decide +kernel)

example : formatterTests.passes (mkdnObj ((Mkdn.new ()).makeHtml (fun _ t => (.ok t, ()))).1) = true :=
  ((C119_shipped (fun _ t => (.ok t, ())) () (fun _ _ => .ok [])).2.1).2 ⟨[], rfl⟩

end Bglib
