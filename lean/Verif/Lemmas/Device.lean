import Verif.Spec.Device
/-
The cache of the device, and the search for the size of a font.
-/
namespace Bglib
open Spec Img

/-- What is kept is what would be loaded. -/
def KeptOk (L : Library) : CacheKey → Cached → Prop
  | .font u n, .font f => f = ⟨u, n⟩ ∧ u ≠ [] ∧ L.truetype u n = .ok ()
  | .image u s fl, .image p => ∃ alpha, p = ⟨u, s, fl, alpha⟩ ∧ L.open_ u = .ok alpha ∧ L.resize u s = .ok ()
  | _, _ => False

def CacheOk (L : Library) (c : Cache) : Prop := ∀ k v, c.lookup k = some v → KeptOk L k v

theorem cacheOk_nil (L : Library) : CacheOk L [] := by
  intro k v h
  cases h

theorem cacheOk_cons {L : Library} {c : Cache} {k : CacheKey} {v : Cached} (hc : CacheOk L c) (h : KeptOk L k v) :
    CacheOk L ((k, v) :: c) := by
  intro k' v' h'
  rw [List.lookup_cons] at h'
  by_cases e : k' = k
  · subst e
    simp only [beq_self_eq_true, Option.some.injEq] at h'
    exact h' ▸ h
  · rw [beq_eq_false_iff_ne.2 e] at h'
    exact hc k' v' h'

/-- The result does not depend on the cache. -/
def Steady (L : Library) {α : Type} (x : Dev α) : Prop :=
  ∀ c, CacheOk L c → CacheOk L (x c).1 ∧ (x c).2 = (x []).2

theorem steady_ok {L : Library} {α : Type} (a : α) : Steady L (Dev.ok a) := fun _ h => ⟨h, rfl⟩

theorem steady_fail {L : Library} {α : Type} (e : PyErr) : Steady L (Dev.fail e : Dev α) := fun _ h => ⟨h, rfl⟩

theorem steady_andThen {L : Library} {α β : Type} {x : Dev α} {f : α → Dev β} (hx : Steady L x)
    (hf : ∀ a, Steady L (f a)) : Steady L (x.andThen f) := by
  intro c hc
  obtain ⟨h1, h2⟩ := hx c hc
  obtain ⟨h0, -⟩ := hx [] (cacheOk_nil L)
  unfold Dev.andThen
  rcases e : x c with ⟨c1, r⟩
  rcases e' : x [] with ⟨c0, r'⟩
  rw [e] at h1 h2
  rw [e'] at h2 h0
  dsimp only at h1 h2 h0
  subst h2
  cases r with
  | error z => exact ⟨h1, rfl⟩
  | ok a =>
    dsimp only
    exact ⟨(hf a c1 h1).1, (hf a c1 h1).2.trans (hf a c0 h0).2.symm⟩

theorem steady_loadFont (L : Library) (u : Text) (n : Int) : Steady L (loadFont L u n) := by
  intro c hc
  unfold loadFont
  simp only [List.lookup_nil]
  rcases e : c.lookup (.font u n) with _ | v
  · simp only [e]
    by_cases hu : u = []
    · simp only [if_pos hu]
      exact ⟨hc, trivial⟩
    · simp only [if_neg hu]
      rcases e' : L.truetype u n with z | z
      · exact ⟨hc, rfl⟩
      · exact ⟨cacheOk_cons hc ⟨rfl, hu, e'⟩, rfl⟩
  · have := hc _ _ e
    cases v with
    | font f =>
      obtain ⟨rfl, hu, ht⟩ := this
      simp only [e, if_neg hu, ht]
      exact ⟨hc, trivial⟩
    | image p => exact this.elim

theorem steady_loadImage (L : Library) (u : Text) (s : Int × Int) (fl : Bool) : Steady L (loadImage L u s fl) := by
  intro c hc
  unfold loadImage
  simp only [List.lookup_nil]
  rcases e : c.lookup (.image u s fl) with _ | v
  · simp only [e]
    rcases e' : L.open_ u with z | al
    · exact ⟨hc, rfl⟩
    · dsimp only
      rcases e'' : L.resize u s with z | z
      · exact ⟨hc, rfl⟩
      · exact ⟨cacheOk_cons hc ⟨al, rfl, e', e''⟩, rfl⟩
  · have := hc _ _ e
    cases v with
    | font f => exact this.elim
    | image p =>
      obtain ⟨al, rfl, ho, hr⟩ := this
      simp only [e, ho, hr]
      exact ⟨hc, trivial⟩

theorem steady_tryFonts (L : Library) (u : Text) (size : Int × Int) (s : Text) (n : Nat) (k : Int) :
    Steady L (tryFonts L u size s n k) := by
  induction n generalizing k with
  | zero =>
    unfold tryFonts
    refine steady_andThen (steady_loadFont L u k) fun f => ?_
    dsimp only
    split
    · exact steady_ok _
    · exact steady_ok _
  | succ n ih =>
    unfold tryFonts
    refine steady_andThen (steady_loadFont L u k) fun f => ?_
    dsimp only
    split
    · exact ih _
    · exact steady_ok _

theorem steady_drawText (L : Library) (pos size : Int × Int) (s u fill : Text) :
    Steady L (drawText L pos size s u fill) := by
  unfold drawText calcFontSize
  refine steady_andThen (steady_tryFonts L u size s _ _) fun r => ?_
  split
  · exact steady_ok _
  · exact steady_andThen (steady_loadFont L u _) fun f => steady_ok _

theorem steady_paintOp (L : Library) (o : Op) : Steady L (paintOp L o) := by
  cases o with
  | text pos size s u fill => exact steady_drawText L pos size s u fill
  | ellipse pos size fill => exact steady_ok _
  | polygon pts fill => exact steady_ok _
  | rect pos size fill => exact steady_ok _
  | image u size fl pos =>
    refine steady_andThen (steady_loadImage L u size fl) fun p => ?_
    unfold pasteImage
    split
    · exact steady_fail _
    · exact steady_ok _

theorem steady_paintAll (L : Library) (l : List Op) : Steady L (paintAll L l) := by
  induction l with
  | nil => exact steady_ok _
  | cons o os ih =>
    unfold paintAll
    exact steady_andThen (steady_paintOp L o) fun a => steady_andThen ih fun b => steady_ok _

theorem steady_drawOn (L : Library) (rules : List Rule) (size : Int × Int) (b : Board) :
    Steady L (drawOn L rules size b) := by
  unfold drawOn
  split
  · exact steady_fail _
  · exact steady_paintAll L _

theorem history_ok (L : Library) (ls : List (List Op)) (c : Cache) (hc : CacheOk L c) : CacheOk L (history L ls c) := by
  induction ls generalizing c with
  | nil => exact hc
  | cons l ls ih => exact ih _ (steady_paintAll L l c hc).1

/-- Reading a step from the result. -/
theorem andThen_res {L : Library} {α β : Type} {x : Dev α} {f : α → Dev β} (hx : Steady L x)
    (hf : ∀ a, Steady L (f a)) :
    (x.andThen f []).2 = match (x []).2 with | .ok a => (f a []).2 | .error e => .error e := by
  obtain ⟨h0, -⟩ := hx [] (cacheOk_nil L)
  unfold Dev.andThen
  rcases e' : x [] with ⟨c0, r'⟩
  rw [e'] at h0
  cases r' with
  | error z => rfl
  | ok a => exact (hf a c0 h0).2

theorem loadFont_res {L : Library} {u : Text} {n : Int} (hu : u ≠ []) :
    (loadFont L u n []).2 = match L.truetype u n with | .ok () => .ok ⟨u, n⟩ | .error e => .error e := by
  unfold loadFont
  simp only [List.lookup_nil, if_neg hu]
  cases L.truetype u n <;> rfl

/-- The search finds the largest size that fits. -/
theorem tryFonts_spec {L : Library} {u : Text} (hu : u ≠ []) (size : Int × Int) (s : Text) (n : Nat) (k : Int)
    (hl : ∀ m, k - n ≤ m → m ≤ k → L.truetype u m = .ok ()) :
    (∃ m, k - n ≤ m ∧ m ≤ k ∧ TextFits L u size s m ∧ (∀ j, m < j → j ≤ k → ¬ TextFits L u size s j) ∧
        (tryFonts L u size s n k []).2 = .ok (some m, L.getsize ⟨u, m⟩ s)) ∨
      ((∀ m, k - n ≤ m → m ≤ k → ¬ TextFits L u size s m) ∧
        (tryFonts L u size s n k []).2 = .ok (none, L.getsize ⟨u, k - n⟩ s)) := by
  induction n generalizing k with
  | zero =>
    have st : ∀ f : Font, Steady L ((fun f => if (L.getsize f s).1 ≥ size.1 ∨ (L.getsize f s).2 ≥ size.2 then
        Dev.ok (none, L.getsize f s) else Dev.ok (some k, L.getsize f s) : Font → Dev (Option Int × (Int × Int))) f) := by
      intro f; dsimp only; split <;> exact steady_ok _
    have e : (tryFonts L u size s 0 k []).2 = if (L.getsize ⟨u, k⟩ s).1 ≥ size.1 ∨ (L.getsize ⟨u, k⟩ s).2 ≥ size.2 then
        .ok (none, L.getsize ⟨u, k⟩ s) else .ok (some k, L.getsize ⟨u, k⟩ s) := by
      unfold tryFonts
      refine (andThen_res (steady_loadFont L u k) st).trans ?_
      rw [loadFont_res hu, hl k (by omega) (by omega)]
      dsimp only
      split <;> rfl
    rw [e]
    by_cases hf : TextFits L u size s k
    · refine .inl ⟨k, by omega, by omega, hf, fun j h1 h2 => by omega, ?_⟩
      rw [if_neg (by unfold TextFits at hf; omega)]
    · refine .inr ⟨fun m h1 h2 => ?_, ?_⟩
      · have : m = k := by omega
        exact this ▸ hf
      · rw [if_pos (by unfold TextFits at hf; omega)]
        simp
  | succ n ih =>
    have st : ∀ f : Font, Steady L ((fun f => if (L.getsize f s).1 ≥ size.1 ∨ (L.getsize f s).2 ≥ size.2 then
        tryFonts L u size s n (k - 1) else Dev.ok (some k, L.getsize f s) : Font → Dev (Option Int × (Int × Int))) f) := by
      intro f; dsimp only; split
      · exact steady_tryFonts _ _ _ _ _ _
      · exact steady_ok _
    have e : (tryFonts L u size s (n + 1) k []).2 = if (L.getsize ⟨u, k⟩ s).1 ≥ size.1 ∨ (L.getsize ⟨u, k⟩ s).2 ≥ size.2 then
        (tryFonts L u size s n (k - 1) []).2 else .ok (some k, L.getsize ⟨u, k⟩ s) := by
      rw [tryFonts]
      refine (andThen_res (steady_loadFont L u k) st).trans ?_
      rw [loadFont_res hu, hl k (by omega) (by omega)]
      dsimp only
      split <;> rfl
    rw [e]
    by_cases hf : TextFits L u size s k
    · refine .inl ⟨k, by omega, by omega, hf, fun j h1 h2 => by omega, ?_⟩
      rw [if_neg (by unfold TextFits at hf; omega)]
    · rw [if_pos (by unfold TextFits at hf; omega)]
      rcases ih (k - 1) (fun m h1 h2 => hl m (by omega) (by omega)) with ⟨m, h1, h2, h3, h4, h5⟩ | ⟨h1, h2⟩
      · refine .inl ⟨m, by omega, by omega, h3, fun j h6 h7 => ?_, h5⟩
        rcases Int.lt_or_eq_of_le h7 with h | h
        · exact h4 j h6 (by omega)
        · exact h ▸ hf
      · refine .inr ⟨fun m h3 h4 => ?_, ?_⟩
        · rcases Int.lt_or_eq_of_le h4 with h | h
          · exact h1 m (by omega) (by omega)
          · exact h ▸ hf
        · rw [h2, show k - 1 - (n : Int) = k - ((n + 1 : Nat) : Int) by omega]

/-! ### What has been painted -/

theorem andThen_ok {L : Library} {α β : Type} {x : Dev α} {f : α → Dev β} (hx : Steady L x) (hf : ∀ a, Steady L (f a))
    {b : β} (h : (x.andThen f []).2 = .ok b) : ∃ a, (x []).2 = .ok a ∧ (f a []).2 = .ok b := by
  rw [andThen_res hx hf] at h
  cases e : (x []).2 with
  | error z => rw [e] at h; cases h
  | ok a => rw [e] at h; exact ⟨a, rfl, h⟩

theorem loadFont_ok {L : Library} {u : Text} {n : Int} {f : Font} (h : (loadFont L u n []).2 = .ok f) : f = ⟨u, n⟩ := by
  unfold loadFont at h
  simp only [List.lookup_nil] at h
  split at h
  · cases h
  · split at h
    · cases h
    · cases h; rfl

theorem loadImage_ok {L : Library} {u : Text} {s : Int × Int} {fl : Bool} {p : Pict}
    (h : (loadImage L u s fl []).2 = .ok p) : p.size = s := by
  unfold loadImage at h
  simp only [List.lookup_nil] at h
  split at h
  · cases h
  · split at h
    · cases h
    · cases h; rfl

theorem tryFonts_ok {L : Library} {u : Text} {size : Int × Int} {s : Text} {n : Nat} {k m : Int} {t : Int × Int}
    (h : (tryFonts L u size s n k []).2 = .ok (some m, t)) : t = L.getsize ⟨u, m⟩ s ∧ TextFits L u size s m := by
  induction n generalizing k with
  | zero =>
    unfold tryFonts at h
    obtain ⟨f, h1, h2⟩ := andThen_ok (steady_loadFont L u k) (fun f => by
      dsimp only; split <;> exact steady_ok _) h
    have := loadFont_ok h1
    subst this
    dsimp only at h2
    split at h2
    · cases h2
    · next hn =>
      cases h2
      exact ⟨rfl, by unfold TextFits; omega⟩
  | succ n ih =>
    rw [tryFonts] at h
    obtain ⟨f, h1, h2⟩ := andThen_ok (steady_loadFont L u k) (fun f => by
      dsimp only; split
      · exact steady_tryFonts _ _ _ _ _ _
      · exact steady_ok _) h
    have := loadFont_ok h1
    subst this
    dsimp only at h2
    split at h2
    · exact ih h2
    · next hn =>
      cases h2
      exact ⟨rfl, by unfold TextFits; omega⟩

theorem drawText_ok {L : Library} {pos size : Int × Int} {s u fill : Text} {l : List Paint}
    (h : (drawText L pos size s u fill []).2 = .ok l) :
    l = [] ∨ ∃ n, TextFits L u size s n ∧ l = [.text (middle pos size (L.getsize ⟨u, n⟩ s)) s ⟨u, n⟩ fill] := by
  unfold drawText calcFontSize at h
  obtain ⟨⟨r, t⟩, h1, h2⟩ := andThen_ok (steady_tryFonts L u size s _ _) (fun r => by
    split
    · exact steady_ok _
    · exact steady_andThen (steady_loadFont L u _) fun f => steady_ok _) h
  cases r with
  | none => cases h2; exact .inl rfl
  | some n =>
    obtain ⟨rfl, hf⟩ := tryFonts_ok h1
    obtain ⟨f, h3, h4⟩ := andThen_ok (steady_loadFont L u n) (fun f => steady_ok _) h2
    have := loadFont_ok h3
    subst this
    cases h4
    exact .inr ⟨n, hf, rfl⟩

theorem paintAll_ok {L : Library} {ops : List Op} {ps : List Paint} (h : (paintAll L ops []).2 = .ok ps) {p : Paint}
    (hp : p ∈ ps) : ∃ o ∈ ops, ∃ l, (paintOp L o []).2 = .ok l ∧ p ∈ l := by
  induction ops generalizing ps with
  | nil => cases h; cases hp
  | cons o os ih =>
    unfold paintAll at h
    obtain ⟨a, h1, h2⟩ := andThen_ok (steady_paintOp L o) (fun a => steady_andThen (steady_paintAll L os) fun b => steady_ok _) h
    obtain ⟨b, h3, h4⟩ := andThen_ok (steady_paintAll L os) (fun b => steady_ok _) h2
    cases h4
    rcases List.mem_append.1 hp with hp | hp
    · exact ⟨o, List.mem_cons_self, a, h1, hp⟩
    · obtain ⟨o', ho, l, h5, h6⟩ := ih h3 hp
      exact ⟨o', List.mem_cons_of_mem _ ho, l, h5, h6⟩

theorem opsSized_eq {rules : List Rule} {size : Int × Int} {b : Board} {ops : List Op}
    (h : drawSized rules size b = .ok ops) : opsSized rules size b = .ok ops := by
  unfold drawSized at h
  unfold opsSized
  cases e1 : ETree.create.set b with
  | error x => rw [e1] at h; cases h
  | ok t =>
    rw [e1] at h
    dsimp only at h ⊢
    cases e2 : t.board.styled rules [] with
    | error x => rw [e2] at h; cases h
    | ok t' =>
      rw [e2] at h
      dsimp only at h ⊢
      cases e3 : treeMag t' size with
      | error x => rw [e3] at h; cases h
      | ok m =>
        rw [e3] at h
        dsimp only at h ⊢
        cases e4 : t'.drawn (applyMag m) [] with
        | error x => rw [e4] at h; cases h
        | ok l =>
          rw [e4] at h
          dsimp only at h
          unfold resultOf at h
          split at h
          · cases h
          · exact h

end Bglib
