import Verif.Lemmas.Silence
import Verif.Props.Threads
/-
A delivery among other threads.
-/
namespace Bglib
open Spec

variable {ρ : Type}

/-- Programs that touch neither the subscribers nor the list of calls. -/
inductive Apartly : Prog (Logged ρ) → Prop where
  | ret (v : Nat) : Apartly (.ret v)
  | raise (e : PyErr) : Apartly (.raise e)
  | spin : Apartly .spin
  | flags (f k) : (∀ s, (f s).rest.1 = s.rest.1) → (∀ s, Apartly (k s)) → Apartly (.flags f k)
  | acquire (p) : Apartly p → Apartly (.acquire p)
  | release (p) : Apartly p → Apartly (.release p)
  | seq (p k) : Apartly p → (∀ v, Apartly (k v)) → Apartly (.seq p k)
  | tryFinally (p q) : Apartly p → Apartly q → Apartly (.tryFinally p q)
  | tryExcept (p h) : Apartly p → (∀ e, Apartly (h e)) → Apartly (.tryExcept p h)

theorem apartly_synchronized {b : Prog (Logged ρ)} (h : Apartly b) : Apartly (synchronized b) :=
  .acquire _ (.tryFinally _ _ h (.release _ (.ret _)))

theorem apartly_modest {p : Prog (Logged ρ)} (h : Modest p) : Apartly p := by
  induction h with
  | ret v => exact .ret _
  | raise e => exact .raise _
  | spin => exact .spin
  | flags f k hf _ ih => exact .flags _ _ hf ih
  | seq p k _ _ ihp ihk => exact .seq _ _ ihp ihk
  | tryFinally p q _ _ ihp ihq => exact .tryFinally _ _ ihp ihq
  | tryExcept p h _ _ ihp ihh => exact .tryExcept _ _ ihp ihh
  | isActive => exact apartly_synchronized (.flags _ _ (fun _ => rfl) fun _ => .ret _)
  | close => exact apartly_synchronized (.flags _ _ (fun _ => rfl) fun _ => .flags _ _ (fun _ => rfl) fun _ => .ret _)
  | sendLine w =>
    refine apartly_synchronized (.flags _ _ (fun _ => rfl) fun f => ?_)
    split
    · exact .ret _
    · exact .raise _
  | opens => exact .flags _ _ (fun _ => rfl) fun _ => .ret _

/-- The list of subscribers after a step. -/
theorem step_subs {w w' : World (Logged ρ)} {t : Nat} (hs : w.step t = some w') :
    w'.subs = match (w.threads t).cur with
      | .subs f _ => f w.subs
      | _ => w.subs := by
  unfold World.step at hs
  rcases hth : w.threads t with ⟨cur, st⟩
  rw [hth] at hs
  cases cur with
  | ret v => cases st with
    | nil => simp at hs
    | cons f st => simp only [Option.some.injEq] at hs; subst hs; rfl
  | raise e => cases st with
    | nil => simp at hs
    | cons f st => simp only [Option.some.injEq] at hs; subst hs; rfl
  | spin | subs _ _ | flags _ _ | seq _ _ | tryFinally _ _ | tryExcept _ _ =>
    simp only [Option.some.injEq] at hs
    subst hs
    rfl
  | acquire k =>
    dsimp only at hs
    cases hl : w.lock.acquire t with
    | none => rw [hl] at hs; simp at hs
    | some l => rw [hl] at hs; simp only [Option.some.injEq] at hs; subst hs; rfl
  | release k =>
    dsimp only at hs
    cases hl : w.lock.release t with
    | none => rw [hl] at hs; simp only [Option.some.injEq] at hs; subst hs; rfl
    | some l => rw [hl] at hs; simp only [Option.some.injEq] at hs; subst hs; rfl

/-- Other threads change neither subscribers nor calls while a thread is inside a synchronized method. -/
theorem step_other {w w' : World (Logged ρ)} {t u : Nat} (hr : Runs w) (hsh : ∀ u, Shaped (w.threads u)) (hin : Inside w t) (hu : u ≠ t)
    (hs : w.step u = some w') : w'.subs = w.subs ∧ calls w' = calls w ∧ w'.threads t = w.threads t := by
  have hnot : ¬ Holds w u := by
    rintro ⟨n, hn⟩
    obtain ⟨m, hm⟩ := C32_inside w hr t hin
    rw [hn] at hm
    cases hm
    exact hu rfl
  obtain ⟨th, e, hm⟩ := step_thread hs
  have h3 : w'.threads t = w.threads t := by rw [e, put_other _ _ _ _ (Ne.symm hu)]
  have hsubs := step_subs hs
  have h1 : w'.subs = w.subs := by
    rw [hsubs]
    split
    · next f k hc => exact absurd (C32_guarded w hr u ⟨f, k, hc⟩) hnot
    · rfl
  refine ⟨h1, ?_, h3⟩
  unfold calls
  rcases hth : w.threads u with ⟨cur, st⟩
  rw [hth] at hm
  rcases hsh u with hso | ⟨upper, lower, hst, _⟩
  · rw [hth] at hso
    have hc := hso.1
    dsimp only at hc
    cases hc with
    | flags f k hf hk => obtain ⟨_, hfl⟩ := hm; rw [hfl]; exact (hf _).1
    | ret v => obtain ⟨_, _, _, _, hfl⟩ := hm; rw [hfl]
    | raise e => obtain ⟨_, _, _, _, hfl⟩ := hm; rw [hfl]
    | spin | subs _ _ _ | acquire _ _ | release _ _ | seq _ _ _ _ | tryFinally _ _ _ _ | tryExcept _ _ _ _ | guarded _ _ _ _ =>
      obtain ⟨_, hfl⟩ := hm; rw [hfl]
  · exact absurd (C32_inside w hr u (by unfold Inside; rw [hst]; simp)) hnot

/-- How far a delivery is; `done` are the calls made. -/
inductive DeliveryStage (t : Nat) (h : HandlersP (Logged ρ)) (name : Text) (got : Nat) (st : List (Frame (Logged ρ))) (subs : List Sub)
    (before : List Called) (w : World (Logged ρ)) : Prop where
  | next (fuel i : Nat) : w.subs = subs → subs.length < fuel + i → i ≤ subs.length →
      w.threads t = ⟨deliverP (logged h) name got fuel i, .fin unlock :: st⟩ →
      calls w = (due h name got (subs.take i)).reverse ++ before → DeliveryStage t h name got st subs before w
  | call (fuel i : Nat) (x : Sub) (p : Nat → Prog (Logged ρ)) : w.subs = subs → subs.length < fuel + (i + 1) → subs[i]? = some x → h x name = some p →
      w.threads t = ⟨.seq (.flags (writeCall ⟨x, name, got⟩) fun _ => p got) fun _ => deliverP (logged h) name got fuel (i + 1), .fin unlock :: st⟩ →
      calls w = (due h name got (subs.take i)).reverse ++ before → DeliveryStage t h name got st subs before w
  | begin (fuel i : Nat) (x : Sub) (p : Nat → Prog (Logged ρ)) : w.subs = subs → subs.length < fuel + (i + 1) → subs[i]? = some x → h x name = some p →
      w.threads t = ⟨.flags (writeCall ⟨x, name, got⟩) fun _ => p got,
        .seq (fun _ => deliverP (logged h) name got fuel (i + 1)) :: .fin unlock :: st⟩ →
      calls w = (due h name got (subs.take i)).reverse ++ before → DeliveryStage t h name got st subs before w
  | inside (fuel i : Nat) (upper : List (Frame (Logged ρ))) : w.subs = subs → subs.length < fuel + (i + 1) → i < subs.length →
      (w.threads t).stack = upper ++ .seq (fun _ => deliverP (logged h) name got fuel (i + 1)) :: .fin unlock :: st →
      Apartly (w.threads t).cur → (∀ f ∈ upper, f.All Apartly) →
      calls w = (due h name got (subs.take (i + 1))).reverse ++ before → DeliveryStage t h name got st subs before w
  | failed (i : Nat) (e : PyErr) : i ≤ subs.length → Delivered w t st (.error e) →
      calls w = (due h name got (subs.take i)).reverse ++ before → DeliveryStage t h name got st subs before w
  | over (v : Nat) : Delivered w t st (.ok v) → calls w = (due h name got subs).reverse ++ before → DeliveryStage t h name got st subs before w

theorem phase_inside {t : Nat} {h : HandlersP (Logged ρ)} {name : Text} {got : Nat} {st : List (Frame (Logged ρ))} {subs : List Sub}
    {before : List Called} {w : World (Logged ρ)} (hp : DeliveryStage t h name got st subs before w) : Inside w t := by
  unfold Inside
  cases hp with
  | next fuel i _ _ _ e _ => rw [e]; simp
  | call fuel i x p _ _ _ _ e _ => rw [e]; simp
  | begin fuel i x p _ _ _ _ e _ => rw [e]; simp
  | inside fuel i upper _ _ _ e _ _ _ => rw [e]; simp
  | failed i e _ hd _ => rw [hd]; simp
  | over v hd _ => rw [hd]; simp

theorem due_succ (h : HandlersP (Logged ρ)) (name : Text) (got : Nat) (subs : List Sub) (i : Nat) (x : Sub) (hx : subs[i]? = some x) :
    due h name got (subs.take (i + 1)) = due h name got (subs.take i) ++ if (h x name).isSome then [⟨x, name, got⟩] else [] := by
  have : subs.take (i + 1) = subs.take i ++ [x] := by
    rw [List.take_add_one, hx]; rfl
  rw [this, due, due, List.filter_append, List.map_append]
  congr 1
  by_cases hs : (h x name).isSome = true <;> simp [hs]

theorem step_phase {t : Nat} {h : HandlersP (Logged ρ)} (hh : ∀ x n p, h x n = some p → ∀ got, Modest (p got)) {name : Text} {got : Nat}
    {st : List (Frame (Logged ρ))} {subs : List Sub} {before : List Called} {w w' : World (Logged ρ)} (hr : Runs w)
    (hsh : ∀ u, Shaped (w.threads u)) (hp : DeliveryStage t h name got st subs before w) (hd : ∀ o, ¬ Delivered w t st o) (u : Nat)
    (hs : w.step u = some w') : DeliveryStage t h name got st subs before w' := by
  by_cases hu : u = t
  · subst hu
    obtain ⟨th, e, hm⟩ := step_thread hs
    have hsubs := step_subs hs
    have hth : w'.threads u = th := by rw [e, put_self]
    cases hp with
    | failed i e _ hd' _ => exact absurd hd' (hd _)
    | over v hd' _ => exact absurd hd' (hd _)
    | next fuel i h1 h2 h3 h4 h5 =>
      rw [h4] at hm hsubs
      cases fuel with
      | zero => omega
      | succ fuel =>
        simp only [deliverP] at hm hsubs
        obtain ⟨rfl, hf⟩ := hm
        have hc : calls w' = calls w := by unfold calls; rw [hf]
        simp only [id] at hsubs
        rw [h1] at hth
        cases hx : subs[i]? with
        | none =>
          rw [hx] at hth
          have : subs.length ≤ i := List.getElem?_eq_none_iff.1 hx
          refine .over 0 hth ?_
          rw [hc, h5, List.take_of_length_le this]
        | some x =>
          rw [hx] at hth
          dsimp only at hth
          have hi : i < subs.length := (List.getElem?_eq_some_iff.1 hx).1
          cases hhx : h x name with
          | none =>
            have : logged h x name = none := by unfold logged; rw [hhx]; rfl
            rw [this] at hth
            refine .next fuel (i + 1) (hsubs.trans h1) (by omega) (by omega) hth ?_
            rw [hc, h5, due_succ h name got subs i x hx, hhx]
            simp
          | some p =>
            have : logged h x name = some fun got => .flags (writeCall ⟨x, name, got⟩) fun _ => p got := by unfold logged; rw [hhx]; rfl
            rw [this] at hth
            exact .call fuel i x p (hsubs.trans h1) (by omega) hx hhx hth (hc.trans h5)
    | call fuel i x p h1 h2 h3 h4 h5 h6 =>
      rw [h5] at hm hsubs
      obtain ⟨rfl, hf⟩ := hm
      exact .begin fuel i x p (hsubs.trans h1) h2 h3 h4 hth (by unfold calls; rw [hf]; exact h6)
    | begin fuel i x p h1 h2 h3 h4 h5 h6 =>
      rw [h5] at hm hsubs
      obtain ⟨rfl, hf⟩ := hm
      refine .inside fuel i [] (hsubs.trans h1) h2 (List.getElem?_eq_some_iff.1 h3).1 (by rw [hth]; rfl)
        (by rw [hth]; exact apartly_modest (hh x name p h4 got)) (by simp) ?_
      rw [due_succ h name got subs i x h3, h4]
      have : calls w' = ⟨x, name, got⟩ :: calls w := by unfold calls; rw [hf]; rfl
      rw [this, h6]
      simp
    | inside fuel i upper h1 h2 h3 h4 h5 h6 h7 =>
      rcases hw : w.threads u with ⟨cur, stk⟩
      rw [hw] at hm hsubs h4 h5
      dsimp only at h4 h5 hsubs
      have mk : ∀ pre, th.stack = pre ++ (upper ++ .seq (fun _ => deliverP (logged h) name got fuel (i + 1)) :: .fin unlock :: st) →
          Apartly th.cur → (∀ f ∈ pre, f.All Apartly) → w'.subs = w.subs → calls w' = calls w → DeliveryStage u h name got st subs before w' := by
        intro pre e1 e2 e3 e4 e5
        refine .inside fuel i (pre ++ upper) (e4.trans h1) h2 h3 (by rw [hth, e1, List.append_assoc]) (by rw [hth]; exact e2) ?_ (e5.trans h7)
        intro f hf
        rcases List.mem_append.1 hf with hf | hf
        · exact e3 f hf
        · exact h6 f hf
      have ends : ∀ o f r, stk = f :: r → th = f.receive o r → w'.flags = w.flags → w'.subs = w.subs →
          DeliveryStage u h name got st subs before w' := by
        intro o f r e1 e2 e3 e4
        have hc : calls w' = calls w := by unfold calls; rw [e3]
        cases upper with
        | nil =>
          rw [List.nil_append, e1] at h4
          obtain ⟨rfl, rfl⟩ := List.cons.inj h4
          cases o with
          | ok v => exact .next fuel (i + 1) (e4.trans h1) h2 (by omega) (by rw [hth, e2]; rfl) (hc.trans h7)
          | error e => exact .failed (i + 1) e (by omega) (by rw [Delivered, hth, e2]; rfl) (hc.trans h7)
        | cons g upper =>
          rw [List.cons_append, e1] at h4
          obtain ⟨rfl, rfl⟩ := List.cons.inj h4
          have hg := h6 f (by simp)
          have hup : ∀ g ∈ upper, g.All Apartly := fun g hg => h6 g (by simp [hg])
          have mk' : ∀ cur pre, th = ⟨cur, pre ++ (upper ++ .seq (fun _ => deliverP (logged h) name got fuel (i + 1)) :: .fin unlock :: st)⟩ →
              Apartly cur → (∀ f ∈ pre, f.All Apartly) → DeliveryStage u h name got st subs before w' := by
            intro cur pre e1 e2 e3
            refine .inside fuel i (pre ++ upper) (e4.trans h1) h2 h3 (by rw [hth, e1, List.append_assoc]) (by rw [hth, e1]; exact e2) ?_ (hc.trans h7)
            intro f hf
            rcases List.mem_append.1 hf with hf | hf
            · exact e3 f hf
            · exact hup f hf
          cases f with
          | seq k => cases o with
            | ok v => exact mk' _ [] e2 (hg v) (by simp)
            | error e => exact mk' _ [] e2 (.raise e) (by simp)
          | fin p => exact mk' _ [_] e2 hg (by simp [Frame.All])
          | except h => cases o with
            | ok v => exact mk' _ [] e2 (.ret v) (by simp)
            | error e => exact mk' _ [] e2 (hg e) (by simp)
          | resume o' =>
            cases o' <;> cases o
            · exact mk' _ [] e2 (.raise _) (by simp)
            · exact mk' _ [] e2 (.raise _) (by simp)
            · exact mk' _ [] e2 (.raise _) (by simp)
            · exact mk' _ [] e2 (.ret _) (by simp)
      subst h4
      cases h5 with
      | ret v => obtain ⟨f, r, e1, e2, e3⟩ := hm; exact ends _ f r e1 e2 e3 hsubs
      | raise e => obtain ⟨f, r, e1, e2, e3⟩ := hm; exact ends _ f r e1 e2 e3 hsubs
      | spin => obtain ⟨rfl, hf⟩ := hm; exact mk [] rfl .spin (by simp) hsubs (by unfold calls; rw [hf])
      | flags f k hf' hk => obtain ⟨rfl, hf⟩ := hm; exact mk [] rfl (hk _) (by simp) hsubs (by unfold calls; rw [hf, hf'])
      | acquire p hp => obtain ⟨rfl, hf⟩ := hm; exact mk [] rfl hp (by simp) hsubs (by unfold calls; rw [hf])
      | release p hp =>
        obtain ⟨rfl | rfl, hf⟩ := hm
        · exact mk [] rfl hp (by simp) hsubs (by unfold calls; rw [hf])
        · exact mk [] rfl (.raise _) (by simp) hsubs (by unfold calls; rw [hf])
      | seq p k hp hk => obtain ⟨rfl, hf⟩ := hm; exact mk [_] rfl hp (by simpa [Frame.All] using hk) hsubs (by unfold calls; rw [hf])
      | tryFinally p q hp hq => obtain ⟨rfl, hf⟩ := hm; exact mk [_] rfl hp (by simpa [Frame.All] using hq) hsubs (by unfold calls; rw [hf])
      | tryExcept p h hp hh => obtain ⟨rfl, hf⟩ := hm; exact mk [_] rfl hp (by simpa [Frame.All] using hh) hsubs (by unfold calls; rw [hf])
  · obtain ⟨e1, e2, e3⟩ := step_other hr hsh (phase_inside hp) hu hs
    cases hp with
    | next fuel i h1 h2 h3 h4 h5 => exact .next fuel i (e1.trans h1) h2 h3 (e3.trans h4) (e2.trans h5)
    | call fuel i x p h1 h2 h3 h4 h5 h6 => exact .call fuel i x p (e1.trans h1) h2 h3 h4 (e3.trans h5) (e2.trans h6)
    | begin fuel i x p h1 h2 h3 h4 h5 h6 => exact .begin fuel i x p (e1.trans h1) h2 h3 h4 (e3.trans h5) (e2.trans h6)
    | inside fuel i upper h1 h2 h3 h4 h5 h6 h7 =>
      exact .inside fuel i upper (e1.trans h1) h2 h3 (by rw [e3]; exact h4) (by rw [e3]; exact h5) h6 (e2.trans h7)
    | failed i e _ hd' _ => exact absurd hd' (hd _)
    | over v hd' _ => exact absurd hd' (hd _)

theorem during_later {t : Nat} {st : List (Frame (Logged ρ))} {w0 w w' : World (Logged ρ)} (h0 : Later w0 w) (h : During t st w w') : Later w0 w' := by
  induction h with
  | refl => exact h0
  | step w' w'' u _ _ hs ih => exact .step _ _ _ u ih hs

theorem during_phase {t : Nat} {h : HandlersP (Logged ρ)} (hh : ∀ x n p, h x n = some p → ∀ got, Modest (p got)) {name : Text} {got : Nat}
    {st : List (Frame (Logged ρ))} {w0 w w' : World (Logged ρ)} (h0 : Fresh w0) (hl : Later w0 w) (hb : Delivers w t h name got st)
    (hd : During t st w w') : DeliveryStage t h name got st w.subs (calls w) w' := by
  induction hd with
  | refl =>
    obtain ⟨fuel, h1, h2⟩ := hb
    exact .next fuel 0 rfl (by omega) (by omega) h2 (by simp [due])
  | step w' w'' u hd' hn hs ih =>
    have := during_later hl hd'
    exact step_phase hh (later_runs h0 this) (later_shaped this fun u => begins_shaped (h0.2 u)) ih hn u hs

end Bglib
