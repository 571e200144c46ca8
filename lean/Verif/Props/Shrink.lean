import Verif.Lemmas.Shrink
/-
C126: the conversion makes a small image from each large one, and touches nothing else.
-/
namespace Bglib
open Bglib.Shrink Bglib.Spec.Shrink

/-- Whatever the names and the library: no file is touched but those whose names are made from names that end with
`cut.jpg`. -/
theorem C126_untouched {Data Img : Type} (lib : Lib Data Img) (names : List Text) (d : Dir Data) (m : Text)
    (h : ∀ n ∈ names, isCut n = true → saveName n ≠ m) : (convert lib names d).1 m = d m := by
  induction names generalizing d with
  | nil => rfl
  | cons n r ih =>
    have hr := fun n hn => h n (List.mem_cons_of_mem _ hn)
    unfold convert
    split
    · rename_i hc
      have hm : m ≠ saveName n := fun e => h n (by simp) hc e.symm
      split
      · rfl
      · split
        · simp [Dir.put, hm]
        · rw [ih _ hr]
          simp [Dir.put, hm]
    · exact ih _ hr

/-- With any names: as long as none clash, from each file whose name ends with `cut.jpg` an image is made (under the name the
program makes of it). -/
theorem C126_clash_partial {Data Img : Type} (lib : Lib Data Img) : ∀ (names : List Text) (d : Dir Data), NoClash names →
    (∀ n ∈ names, isCut n = true → (made lib d n (sizeAsked n)).isSome = true) →
    (convert lib names d).2 = true ∧
      ∀ n ∈ names, isCut n = true → (convert lib names d).1 (saveName n) = made lib d n (sizeAsked n)
  | [], d, _, _ => ⟨rfl, fun _ hn => absurd hn List.not_mem_nil⟩
  | n :: r, d, hno, hcan => by
    have hnor : NoClash r := fun a ha h1 b hb h2 => hno a (List.mem_cons_of_mem _ ha) h1 b (List.mem_cons_of_mem _ hb) h2
    by_cases hc : isCut n = true
    · have hmade := hcan n (by simp) hc
      cases hi : (d n).bind (lib.resized · (sizeAsked n)) with
      | none => unfold made at hmade; rw [hi] at hmade; cases hmade
      | some i =>
        cases hx : lib.saved i with
        | none =>
          unfold made at hmade
          rw [hi] at hmade
          simp only [Option.bind, hx] at hmade
          cases hmade
        | some x =>
          have e : convert lib (n :: r) d = convert lib r (d.put (saveName n) x) := by
            rw [convert, if_pos hc, hi]
            dsimp only
            rw [hx]
          have hm : ∀ k ∈ r, isCut k = true → made lib (d.put (saveName n) x) k (sizeAsked k) = made lib d k (sizeAsked k) := by
            intro k hk hck
            have hne : k ≠ saveName n := fun e => (hno n (by simp) hc k (List.mem_cons_of_mem _ hk) hck).2 e.symm
            unfold made
            rw [show (d.put (saveName n) x) k = d k from if_neg hne]
          obtain ⟨h1, h2⟩ := C126_clash_partial lib r (d.put (saveName n) x) hnor fun k hk hck => by
            rw [hm k hk hck]; exact hcan k (List.mem_cons_of_mem _ hk) hck
          have hms : made lib d n (sizeAsked n) = some x := by
            unfold made; rw [hi]; exact hx
          rw [e]
          refine ⟨h1, fun k hk hck => ?_⟩
          by_cases hin : k ∈ r
          · rw [h2 k hin hck, hm k hin hck]
          · rcases List.mem_cons.1 hk with rfl | hk
            · rw [C126_untouched lib r _ (saveName k) (fun j hj hcj e =>
                hin ((hno j (List.mem_cons_of_mem _ hj) hcj k (by simp) hc).1 e ▸ hj)), hms]
              exact if_pos rfl
            · exact absurd hk hin
    · have e : convert lib (n :: r) d = convert lib r d := by rw [convert, if_neg hc]
      obtain ⟨h1, h2⟩ := C126_clash_partial lib r d hnor fun k hk => hcan k (List.mem_cons_of_mem _ hk)
      rw [e]
      refine ⟨h1, fun k hk hck => ?_⟩
      rcases List.mem_cons.1 hk with rfl | hk
      · exact absurd hck hc
      · exact h2 k hk hck

/-- With regular names and a library that can make the images: the end is reached, from each large image the small one of its
kind is made, and nothing else is touched. -/
theorem C126_made_partial {Data Img : Type} (lib : Lib Data Img) (names : List Text) (d : Dir Data) (hr : Regular names)
    (hc : CanMake lib d names) : (convert lib names d).2 = true ∧
      (∀ s, large s ∈ names → (convert lib names d).1 (small s) = made lib d (large s) (sizeFor s)) ∧
      ∀ m, (∀ s, large s ∈ names → m ≠ small s) → (convert lib names d).1 m = d m := by
  obtain ⟨h1, h2, h3⟩ := convert_eq lib names d hr hc
  exact ⟨h1, h2, fun m hm => h3 m fun s hs e => hm s hs e.symm⟩

/-- It does not matter in which order the names are listed. -/
theorem C126_order_partial {Data Img : Type} (lib : Lib Data Img) (names names' : List Text) (d : Dir Data) (hr : Regular names)
    (hc : CanMake lib d names) (h : ∀ n, n ∈ names ↔ n ∈ names') : convert lib names d = convert lib names' d := by
  have hr' : Regular names' := fun n hn => hr n ((h n).2 hn)
  have hc' : CanMake lib d names' := fun s hs => hc s ((h _).2 hs)
  obtain ⟨h1, h2, h3⟩ := convert_eq lib names d hr hc
  obtain ⟨k1, k2, k3⟩ := convert_eq lib names' d hr' hc'
  refine Prod.ext (funext fun m => ?_) (h1.trans k1.symm)
  by_cases hm : ∃ s, large s ∈ names ∧ small s = m
  · obtain ⟨s, hs, rfl⟩ := hm
    rw [h2 s hs, k2 s ((h _).1 hs)]
  · rw [h3 m fun s hs e => hm ⟨s, hs, e⟩, k3 m fun s hs e => hm ⟨s, (h _).2 hs, e⟩]

/-- Once more changes nothing: the new files are listed too, but are no large images. -/
theorem C126_again_partial {Data Img : Type} (lib : Lib Data Img) (names names' : List Text) (d : Dir Data) (hr : Regular names)
    (hc : CanMake lib d names) (h : ∀ n, isCut n = true → (n ∈ names ↔ n ∈ names')) :
    convert lib names' (convert lib names d).1 = convert lib names d := by
  obtain ⟨h1, h2, h3⟩ := convert_eq lib names d hr hc
  have hr' : Regular names' := fun n hn hcut => hr n ((h n hcut).2 hn) hcut
  have hl : ∀ t, (convert lib names d).1 (large t) = d (large t) := fun t => h3 _ fun s hs e => by
    obtain ⟨s', e1, e2⟩ := hr (large s) hs (isCut_large s)
    rw [← large_inj e1, e, isCut_large] at e2
    cases e2
  have hm : ∀ t, made lib (convert lib names d).1 (large t) (sizeFor t) = made lib d (large t) (sizeFor t) := by
    intro t; unfold made; rw [hl t]
  have hc' : CanMake lib (convert lib names d).1 names' := fun s hs => by
    rw [hm]; exact hc s ((h _ (isCut_large s)).2 hs)
  obtain ⟨k1, k2, k3⟩ := convert_eq lib names' (convert lib names d).1 hr' hc'
  refine Prod.ext (funext fun m => ?_) (k1.trans h1.symm)
  by_cases hx : ∃ s, large s ∈ names ∧ small s = m
  · obtain ⟨s, hs, rfl⟩ := hx
    rw [k2 s ((h _ (isCut_large s)).1 hs), h2 s hs, hm]
  · rw [k3 m fun s hs e => hx ⟨s, (h _ (isCut_large s)).2 hs, e⟩]

/-- A library that keeps the number that stands for an image. -/
def Shrink.plainLib : Lib Nat Nat := ⟨fun x _ => some x, some, 0⟩

/-- A directory with two files. -/
def Shrink.twoFiles (a b : Text) : Dir Nat := fun n => if n = a then some 1 else if n = b then some 2 else none

/-- False for other names: eight characters are cut off whatever they are, so `barcut.jpg` becomes `ba.jpg`; and two large
images may give the same name, so that one of them is lost. -/
theorem C126_false_names :
    (convert plainLib [t!"barcut.jpg"] (twoFiles t!"barcut.jpg" t!"x")).1 t!"ba.jpg" = some 1 ∧
    (convert plainLib [t!"barcut.jpg"] (twoFiles t!"barcut.jpg" t!"x")).1 t!"bar.jpg" = none ∧
    ∀ n, (convert plainLib [t!"a-cut.jpg", t!"a_cut.jpg"] (twoFiles t!"a-cut.jpg" t!"a_cut.jpg")).1 n = some 1 → n = t!"a-cut.jpg" := by
  refine ⟨by decide, by decide, fun n hn => ?_⟩
  have e : convert plainLib [t!"a-cut.jpg", t!"a_cut.jpg"] (twoFiles t!"a-cut.jpg" t!"a_cut.jpg") =
      (((twoFiles t!"a-cut.jpg" t!"a_cut.jpg").put t!"a.jpg" 1).put t!"a.jpg" 2, true) := rfl
  rw [e] at hn
  simp only [Dir.put, twoFiles] at hn
  split at hn
  · cases hn
  · split at hn
    · assumption
    · split at hn <;> cases hn

/-- False for names that end so twice: what comes out depends on the order in which the names are listed. -/
theorem C126_false_order :
    (convert plainLib [t!"a-cut-cut.jpg", t!"a-cut.jpg"] (twoFiles t!"a-cut-cut.jpg" t!"a-cut.jpg")).1 t!"a.jpg" = some 1 ∧
    (convert plainLib [t!"a-cut.jpg", t!"a-cut-cut.jpg"] (twoFiles t!"a-cut-cut.jpg" t!"a-cut.jpg")).1 t!"a.jpg" = some 2 := by
  decide

/-- Non-vacuity: a bar and a point, with sizes as the library is asked for. -/
example : Regular [t!"bar-green-1-cut.jpg", t!"odd-none-cut.jpg", t!"board.jpg"] ∧ sizeFor t!"bar-green-1" = (25, 88) ∧
    sizeFor t!"odd-none" = (19, 88) := by
  refine ⟨?_, by decide, by decide⟩
  intro n hn hc
  simp only [List.mem_cons, List.not_mem_nil, or_false] at hn
  rcases hn with rfl | rfl | rfl
  · exact ⟨t!"bar-green-1", by decide, by decide⟩
  · exact ⟨t!"odd-none", by decide, by decide⟩
  · exact absurd hc (by decide)

example : CanMake plainLib (twoFiles t!"a-cut.jpg" t!"b-cut.jpg") [t!"a-cut.jpg"] := by
  intro s hs
  simp only [List.mem_singleton] at hs
  rw [hs]
  rfl

example : NoClash [t!"barcut.jpg", t!"a-cut.jpg", t!"board.jpg"] := by unfold NoClash; decide

end Bglib
