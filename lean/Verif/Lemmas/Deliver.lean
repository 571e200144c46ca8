import Verif.Spec.Session
import Verif.Lemmas.Monster
/-
Delivery by handlers that leave the session alone (C31, C117).
-/
namespace Bglib
open Spec

variable {σ : Type}

theorem subs_drop {l : List Sub} {i : Nat} {x : Sub} (h : l[i]? = some x) :
    l.drop i = x :: l.drop (i + 1) := by
  obtain ⟨hi, rfl⟩ := List.getElem?_eq_some_iff.1 h
  exact List.drop_eq_getElem_cons hi

theorem deliver_quiet (h : Handlers σ) (name : Text) (got : Got) (hq : Quiet h name) :
    ∀ (fuel i : Nat) (s : Sess σ) (calls : List Call), s.subs.length - i < fuel →
      (deliver h name got fuel i s calls).result = .ok () ∧
      (deliver h name got fuel i s calls).sess.subs = s.subs ∧
      (deliver h name got fuel i s calls).sess.active = s.active ∧
      (deliver h name got fuel i s calls).sess.termReq = s.termReq ∧
      (deliver h name got fuel i s calls).calls = calls ++ wanted h name got (s.subs.drop i) := by
  intro fuel
  induction fuel with
  | zero =>
    intro i s calls hf
    omega
  | succ fuel ih =>
    intro i s calls hf
    unfold deliver
    cases hx : s.subs[i]? with
    | none =>
      have : s.subs.drop i = [] := List.drop_eq_nil_of_le (by simpa using hx)
      simp [this, wanted]
    | some x =>
      dsimp only
      rw [subs_drop hx]
      have hi : i < s.subs.length := (List.getElem?_eq_some_iff.1 hx).1
      cases hh : h x name with
      | none =>
        have := ih (i + 1) s calls (by omega)
        simpa [wanted, hh] using this
      | some f =>
        obtain ⟨h1, h2, h3, h4⟩ := hq x f hh got s
        dsimp only
        rcases hr : f got s with ⟨a, s'⟩
        rw [hr] at h1 h2 h3 h4
        dsimp only at h1 h2 h3 h4 ⊢
        subst h1
        have := ih (i + 1) s' (calls ++ [(x, name, got)]) (by rw [h2]; omega)
        rw [h2, h3, h4] at this
        simpa [wanted, hh] using this

/-- One round of the listener in which a line arrives and nobody interferes. -/
theorem listen_line (h : Handlers σ) (hq : ∀ name, Quiet h name) (order : Phase → List Text) (ho : ValidOrder order) (fuel : Nat)
    (r : Round σ) (rs : List (Round σ)) (nth : Int) (t : Text) (hr : r.recv = .got nth t)
    (hk : ∀ s, (r.before s).subs = s.subs ∧ (r.before s).active = s.active ∧ (r.before s).termReq = s.termReq ∧
      (r.during s).subs = s.subs ∧ (r.during s).active = s.active ∧ (r.during s).termReq = s.termReq)
    (m : Monster) (hm : Reachable order m) (s : Sess σ) (ha : s.active = true) (ht : s.termReq = false)
    (hf : s.subs.length < fuel) :
    ∃ c m' s', m.makeCookie order (received nth t) = (.ok c, m') ∧ Reachable order m' ∧ s'.subs = s.subs ∧ s'.active = true ∧
      s'.termReq = false ∧
      listen h order fuel (r :: rs) m s = (listen h order fuel rs m' s').after (wanted h c (.text (received nth t)) s.subs) := by
  obtain ⟨b1, b2, b3, _⟩ := hk s
  obtain ⟨_, _, _, d1, d2, d3⟩ := hk (r.before s)
  obtain ⟨m', hmk, _⟩ := makeCookie_spec m order (received nth t) ho (reachable_inv order ho m hm)
  have hm' : Reachable order m' := by
    have := Reachable.step m (received nth t) hm
    rw [hmk] at this
    exact this
  have hd := deliver_quiet h (answer m order (received nth t)) (.text (received nth t)) (hq _) fuel 0
    (r.during (r.before s)) [] (by rw [d1, b1]; omega)
  have hdis : dispatch h fuel (answer m order (received nth t)) (.text (received nth t))
      (r.during (r.before s)) = deliver h (answer m order (received nth t)) (.text (received nth t)) fuel 0
        (r.during (r.before s)) [] := by
    unfold dispatch
    rw [if_neg (by rw [d3, b3, ht]; simp)]
  refine ⟨_, m', _, hmk, hm', by rw [hd.2.1, d1, b1], by rw [hd.2.2.1, d2, b2, ha], by rw [hd.2.2.2.1, d3, b3, ht], ?_⟩
  rw [listen, if_pos (by rw [b2, ha]), hr]
  dsimp only
  rw [hmk]
  dsimp only
  rw [hdis, hd.1]
  dsimp only
  rw [hd.2.2.2.2, d1, b1, List.drop_zero, List.nil_append]

end Bglib
