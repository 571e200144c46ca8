import Verif.Lemmas.Exchange
namespace Bglib
open Spec Factory

theorem consume_extra {a a' : Avail} {d : Int} (h : a.consume d = .ok a') : a'.extra = a.extra := by
  unfold Avail.consume Avail.count at h
  repeat' split at h
  all_goals try cases h
  all_goals (simp_all [Avail.put]; try grind)

theorem len_diceLeft (a : Avail) : a.len = (diceLeft a).length + a.extra := by
  unfold Avail.len diceLeft
  simp only [List.length_append, List.length_replicate]

theorem ofRoll_extra {r : Int × Int} (h1 : 1 ≤ r.1 ∧ r.1 ≤ 6) (h2 : 1 ≤ r.2 ∧ r.2 ≤ 6) :
    (Avail.ofRoll r).extra = 0 := by
  have key : ∀ (a : Avail) (k : Int) (v : Nat), 1 ≤ k ∧ k ≤ 6 → (a.put k v).extra = a.extra := by
    intro a k v hk
    have : k = 1 ∨ k = 2 ∨ k = 3 ∨ k = 4 ∨ k = 5 ∨ k = 6 := by omega
    rcases this with h | h | h | h | h | h <;> subst h <;> simp [Avail.put]
  unfold Avail.ofRoll
  rw [if_neg (by omega)]
  split
  · rw [key _ _ _ h1]
  · rw [key _ _ _ h2, key _ _ _ h1]

/-- Adding a legal play to a factory. -/
theorem addAll_play {b b1 : Board} {pms : List PartialMove} (hp : PlayTo b pms b1) (hv : Valid b) :
    ∀ (f : Factory), f.board = b → Forward f.move →
      (∀ d, (pms.map (·.die)).count d ≤ f.avail.num d) →
      ∃ a', f.addAll pms = ⟨⟨b1, f.move ++ pms, a'⟩, none⟩ ∧ a'.extra = f.avail.extra ∧
        ∀ d, a'.num d + (pms.map (·.die)).count d = f.avail.num d := by
  induction hp with
  | nil b => intro f hb _ _; subst hb; exact ⟨f.avail, by simp [Factory.addAll], rfl, by simp⟩
  | @cons b b1 b2 pm pms hs _ ih =>
    intro f hb hfw hd
    obtain ⟨c, hc, hst, hcv, _⟩ := step_exists hv hs.legal
    obtain rfl := step_unique hs hst
    obtain ⟨hin, hun, hlt, _⟩ := LegalStep.inBoard hs.legal
    have hpos : 0 < f.avail.num pm.die := by
      have := hd pm.die
      simp only [List.map_cons, List.count_cons_self] at this
      omega
    obtain ⟨a1, ha1, _, hn1⟩ := Avail.consume_ok hpos
    have happ : f.append pm = ⟨⟨b1, f.move ++ [pm], a1⟩, none⟩ := by
      unfold Factory.append
      simp only [hun, Bool.false_eq_true, if_false, ha1, hb, hc, moveAppend_forward hfw hlt]
    have hfw' : Forward (f.move ++ [pm]) := by
      intro p hp
      simp only [List.mem_append, List.mem_singleton] at hp
      rcases hp with hp | rfl
      · exact hfw p hp
      · exact hlt
    obtain ⟨a', h1, h2, h3⟩ := ih hcv ⟨b1, f.move ++ [pm], a1⟩ rfl hfw' (by
      intro d
      have h4 := hd d
      have h5 := hn1 d
      simp only [List.map_cons, List.count_cons] at h4
      by_cases e : d = pm.die
      · subst e; simp at h4 h5 ⊢; omega
      · have : ¬ pm.die = d := fun h => e h.symm
        simp [e, this] at h4 h5 ⊢; omega)
    refine ⟨a', ?_, ?_, ?_⟩
    · unfold Factory.addAll
      rw [happ]
      simp only [h1, List.append_assoc, List.singleton_append]
    · rw [h2]; exact consume_extra ha1
    · intro d
      have h4 := h3 d
      have h5 := hn1 d
      have h6 := hd d
      simp only [List.map_cons, List.count_cons] at h4 h6 ⊢
      by_cases e : d = pm.die
      · subst e; simp at h4 h5 h6 ⊢; omega
      · have : ¬ pm.die = d := fun h => e h.symm
        simp [e, this] at h4 h5 h6 ⊢; omega

theorem usesDice_length {pms : List PartialMove} {ds : List Int} (h : UsesDice pms ds) :
    pms.length ≤ ds.length := by
  obtain ⟨l3, h3⟩ := perm_of_count_le h
  have := h3.length_eq
  simp at this; omega

theorem usesDice_mem {pms : List PartialMove} {ds : List Int} (h : UsesDice pms ds) :
    ∀ pm ∈ pms, pm.die ∈ ds := by
  intro pm hm
  have := h pm.die
  have hc : 0 < (pms.map (·.die)).count pm.die := List.count_pos_iff.2 (List.mem_map_of_mem hm)
  exact List.count_pos_iff.1 (by omega)

theorem frame_play {b b' : Board} {pms : List PartialMove} (h : PlayTo b pms b') :
    b'.rolled = b.rolled := by
  induction h with
  | nil => rfl
  | cons hs _ ih => rw [ih, hs.frame]

/-- A movement with a remaining die makes the play longer. -/
theorem canMove_longer {b b1 : Board} {pms : List PartialMove} {ds left : List Int} (hv : Valid b)
    (hp : PlayTo b pms b1) (hd : ∀ d, left.count d + (pms.map (·.die)).count d = ds.count d)
    (hc : CanMove b1 left) : ∃ q, Playable b ds q ∧ q.length = pms.length + 1 := by
  obtain ⟨die, hm, src, dest, hit, hl⟩ := hc
  obtain ⟨b2, _, hst, _, _⟩ := step_exists (pm := ⟨die, src, dest, hit⟩) (hp.valid hv) hl
  refine ⟨pms ++ [⟨die, src, dest, hit⟩], ⟨⟨b2, hp.append (.cons hst (.nil _))⟩, ?_⟩, by simp⟩
  intro d
  have h1 := hd d
  rw [List.map_append, List.count_append]
  by_cases e : die = d
  · subst e
    have := List.count_pos_iff.2 hm
    simp; omega
  · simp [e]; omega

end Bglib
