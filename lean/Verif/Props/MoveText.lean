import Verif.Model.MoveText
import Verif.Spec.MoveText
import Verif.Lemmas.Split
import Verif.Lemmas.Append
/-
C81: the text of a move tells its plays.
-/
namespace Bglib
open Spec

/-- What a partial move says. -/
def Spec.playOf (pm : PartialMove) : Play := ⟨pm.src, pm.dest, pm.isHitting⟩

/-- Both ends are places of a board. -/
def Spec.OnPlaces (pm : PartialMove) : Prop := -1 ≤ pm.src ∧ pm.src ≤ 24 ∧ -1 ≤ pm.dest ∧ pm.dest ≤ 24

private def star (h : Bool) : Text := if h then ['*'] else []

private theorem mem_places {n : Int} (h1 : -1 ≤ n) (h2 : n ≤ 24) : n ∈ places := by
  unfold places
  rw [List.mem_map]
  exact ⟨(n + 1).toNat, by rw [List.mem_range]; omega, by omega⟩

private theorem ntop_name : ∀ n ∈ places, moveNtop n = .ok (placeName n) := by decide +kernel

private theorem read_pair : ∀ s ∈ places, ∀ d ∈ places, ∀ h : Bool,
    readPlay (placeName s ++ '/' :: placeName d ++ star h) = some ⟨s, d, h⟩ := by decide +kernel

private theorem name_chars : ∀ n ∈ places, ',' ∉ placeName n ∧ ' ' ∉ placeName n := by decide +kernel

private def text (pm : PartialMove) : Text := placeName pm.src ++ '/' :: placeName pm.dest ++ star pm.isHitting

private theorem pmText_ok {pm : PartialMove} (h : OnPlaces pm) : pmText pm = .ok (text pm) := by
  unfold pmText
  rw [ntop_name _ (mem_places h.1 h.2.1), ntop_name _ (mem_places h.2.2.1 h.2.2.2)]
  rfl

private theorem read_text {pm : PartialMove} (h : OnPlaces pm) : readPlay (text pm) = some (playOf pm) :=
  read_pair _ (mem_places h.1 h.2.1) _ (mem_places h.2.2.1 h.2.2.2) _

private theorem star_chars : ∀ h : Bool, ',' ∉ star h ∧ ' ' ∉ star h := by decide

private theorem text_chars {pm : PartialMove} (h : OnPlaces pm) : ',' ∉ text pm ∧ ' ' ∉ text pm := by
  have a := name_chars _ (mem_places h.1 h.2.1)
  have b := name_chars _ (mem_places h.2.2.1 h.2.2.2)
  have c := star_chars pm.isHitting
  unfold text
  simp only [List.mem_append, List.mem_cons, not_or]
  exact ⟨⟨⟨a.1, by decide, b.1⟩, c.1⟩, ⟨⟨a.2, by decide, b.2⟩, c.2⟩⟩

private theorem mapM_ok (l : List PartialMove) (h : ∀ pm ∈ l, OnPlaces pm) :
    l.mapM pmText = .ok (l.map text) := by
  induction l with
  | nil => rfl
  | cons p l ih =>
    rw [List.mapM_cons, pmText_ok (h p (by simp)), ih (fun q hq => h q (List.mem_cons_of_mem _ hq))]
    rfl

private theorem moveText_cons (p : PartialMove) (l : List PartialMove) (h : ∀ pm ∈ p :: l, OnPlaces pm) :
    moveText (p :: l) = .ok (joinComma ((p :: l).map text)) := by
  unfold moveText
  rw [if_pos (by simp), mapM_ok _ h]
  rfl

private theorem joinComma_cons (a b : Text) (l : List Text) :
    joinComma (a :: b :: l) = a ++ ',' :: ' ' :: joinComma (b :: l) := rfl

private def clip (u : Text) : Text := if u.head? = some ' ' then u.drop 1 else u

private theorem clip_text {u : Text} (h : ' ' ∉ u) : clip u = u ∧ clip (' ' :: u) = u := by
  constructor
  · unfold clip
    rw [if_neg]
    intro e
    cases u with
    | nil => cases e
    | cons c cs => injection e with e; exact h (by simp [e])
  · rfl

private theorem split_join (b : Text) (l : List Text) (h : ∀ u ∈ b :: l, ',' ∉ u) (pre : Text)
    (hp : ',' ∉ pre) :
    splitChar ',' (pre ++ joinComma (b :: l)) = (pre ++ b) :: l.map (' ' :: ·) := by
  induction l generalizing b pre with
  | nil =>
    have := h b (by simp)
    exact splitChar_none _ _ (by simp [hp, joinComma, this])
  | cons c l ih =>
    have hb := h b (by simp)
    rw [joinComma_cons, ← List.append_assoc, splitChar_append _ _ _ (by simp [hp, hb])]
    have := ih c (fun u hu => h u (List.mem_cons_of_mem _ hu)) [' '] (by decide)
    rw [show ' ' :: joinComma (c :: l) = [' '] ++ joinComma (c :: l) from rfl, this]
    rfl

private theorem readEach_map (f : Text → Option Play) (l : List PartialMove) (g : PartialMove → Text)
    (h : ∀ pm ∈ l, f (g pm) = some (playOf pm)) : readEach f (l.map g) = some (l.map playOf) := by
  induction l with
  | nil => rfl
  | cons p l ih =>
    rw [List.map_cons, readEach, h p (by simp), ih (fun q hq => h q (List.mem_cons_of_mem _ hq))]
    rfl

private theorem slash_mem (p : PartialMove) : '/' ∈ text p := by
  unfold text; simp

private theorem join_slash (p : PartialMove) (l : List PartialMove) : '/' ∈ joinComma ((p :: l).map text) := by
  cases l with
  | nil => exact slash_mem p
  | cons q l =>
    rw [List.map_cons, List.map_cons, joinComma_cons]
    exact List.mem_append_left _ (slash_mem p)

/-- **C81** The text of a move can always be written, and read by the rules of the notation it gives the plays
of the move, in order: where from, where to, and whether a chequer is hit. -/
theorem C81_read (l : List PartialMove) (h : ∀ pm ∈ l, OnPlaces pm) :
    ∃ t, moveText l = .ok t ∧ readTurn t = some (l.map playOf) := by
  cases l with
  | nil => exact ⟨_, rfl, by decide⟩
  | cons p l =>
    refine ⟨_, moveText_cons p l h, ?_⟩
    unfold readTurn
    rw [if_neg (by
      intro e
      have := join_slash p l
      rw [e] at this
      revert this; decide)]
    have hc : ∀ u ∈ text p :: l.map text, ',' ∉ u ∧ ' ' ∉ u := by
      intro u hu
      rw [← List.map_cons, List.mem_map] at hu
      obtain ⟨q, hq, rfl⟩ := hu
      exact text_chars (h q hq)
    have := split_join (text p) (l.map text) (fun u hu => (hc u hu).1) [] (by decide)
    rw [List.nil_append, List.nil_append] at this
    rw [List.map_cons, this, show (fun u : Text => readPlay (if u.head? = some ' ' then u.drop 1 else u)) =
      fun u => readPlay (clip u) from rfl, readEach]
    rw [(clip_text (text_chars (h p (by simp))).2).1, read_text (h p (by simp)), List.map_map,
      readEach_map _ l _ (fun q hq => by
        show readPlay (clip (' ' :: text q)) = _
        rw [(clip_text (text_chars (h q (List.mem_cons_of_mem _ hq))).2).2]
        exact read_text (h q (List.mem_cons_of_mem _ hq)))]
    rfl

/-- **C81** Moves with the same text have the same plays. -/
theorem C81_inj (l l' : List PartialMove) (h : ∀ pm ∈ l, OnPlaces pm) (h' : ∀ pm ∈ l', OnPlaces pm)
    (he : moveText l = moveText l') : l.map playOf = l'.map playOf := by
  obtain ⟨t, e, r⟩ := C81_read l h
  obtain ⟨t', e', r'⟩ := C81_read l' h'
  rw [e, e'] at he
  have := Except.ok.inj he
  rw [this, r'] at r
  exact (Option.some.inj r).symm

example : OnPlaces ⟨6, 23, 17, true⟩ ∧ moveText [⟨6, 23, 17, true⟩, ⟨6, 24, 18, false⟩, ⟨5, 3, -1, false⟩] =
    .ok t!"24/18*, bar/19, 4/off" := by
  unfold OnPlaces; decide

/-- Reads what Python shows of a move: the plays in brackets, each with the name of its class. -/
def Spec.readShown (t : Text) : Option (List Play) :=
  if t.take 8 = t!"<Move: [" ∧ t.reverse.take 2 = t!">]" then
    let inner := (t.drop 8).dropLast.dropLast
    if inner = [] then some []
    else readEach (fun u =>
      let u := if u.head? = some ' ' then u.drop 1 else u
      if u.take 14 = t!"<PartialMove: " ∧ u.getLast? = some '>' then readPlay (u.drop 14).dropLast else none)
        (splitChar ',' inner)
  else none

private def shown (pm : PartialMove) : Text := t!"<PartialMove: " ++ (text pm ++ ['>'])

private theorem shown_ok (l : List PartialMove) (h : ∀ pm ∈ l, OnPlaces pm) : l.mapM pmRepr = .ok (l.map shown) := by
  induction l with
  | nil => rfl
  | cons p l ih =>
    have : pmRepr p = .ok (shown p) := by
      unfold pmRepr shown
      rw [pmText_ok (h p (by simp))]
      simp only [bind, Except.bind, pure, Except.pure, List.append_assoc]
    rw [List.mapM_cons, this, ih (fun q hq => h q (List.mem_cons_of_mem _ hq))]
    rfl

private theorem readShown_one {pm : PartialMove} (h : OnPlaces pm) (b : Bool) :
    (let u := if (if b then ' ' :: shown pm else shown pm).head? = some ' ' then
        (if b then ' ' :: shown pm else shown pm).drop 1 else (if b then ' ' :: shown pm else shown pm)
      if u.take 14 = t!"<PartialMove: " ∧ u.getLast? = some '>' then readPlay (u.drop 14).dropLast else none) =
      some (playOf pm) := by
  have e : (if (if b then ' ' :: shown pm else shown pm).head? = some ' ' then
      (if b then ' ' :: shown pm else shown pm).drop 1 else (if b then ' ' :: shown pm else shown pm)) = shown pm := by
    cases b <;> rfl
  simp only [e]
  have h1 : (shown pm).take 14 = t!"<PartialMove: " := List.take_left' rfl
  have h2 : (shown pm).drop 14 = text pm ++ ['>'] := List.drop_left' rfl
  have h3 : (shown pm).getLast? = some '>' := by
    unfold shown; rw [← List.append_assoc]; exact List.getLast?_concat
  rw [h2, if_pos ⟨h1, h3⟩, List.dropLast_concat]
  exact read_text h

/-- **C81** What Python shows of a move tells the same. -/
theorem C81_shown (l : List PartialMove) (h : ∀ pm ∈ l, OnPlaces pm) :
    ∃ t, moveRepr l = .ok t ∧ readShown t = some (l.map playOf) := by
  refine ⟨t!"<Move: [" ++ (joinComma (l.map shown) ++ t!"]>"), ?_, ?_⟩
  · unfold moveRepr
    rw [shown_ok l h]
    simp [bind, Except.bind, pure, Except.pure]
  · unfold readShown
    rw [if_pos ⟨List.take_left' rfl, by rw [List.reverse_append, List.reverse_append]; rfl⟩,
      show (t!"<Move: [" ++ (joinComma (l.map shown) ++ t!"]>")).drop 8 = joinComma (l.map shown) ++ t!"]>" from
        List.drop_left' rfl,
      show joinComma (l.map shown) ++ t!"]>" = (joinComma (l.map shown) ++ [']']) ++ ['>'] by simp,
      List.dropLast_concat, List.dropLast_concat]
    cases l with
    | nil => rfl
    | cons p l =>
      have hne : joinComma ((p :: l).map shown) ≠ [] := by
        cases l with
        | nil => exact fun e => nomatch e
        | cons q l => exact fun e => nomatch e
      simp only [if_neg hne]
      have hc : ∀ u ∈ shown p :: l.map shown, ',' ∉ u := by
        intro u hu
        rw [← List.map_cons, List.mem_map] at hu
        obtain ⟨q, hq, rfl⟩ := hu
        have := (text_chars (h q hq)).1
        unfold shown
        simp only [List.mem_append, not_or]
        exact ⟨by decide, this, by decide⟩
      have := split_join (shown p) (l.map shown) hc [] (by decide)
      rw [List.nil_append, List.nil_append] at this
      rw [List.map_cons, this, readEach]
      have h1 := readShown_one (h p (by simp)) false
      have h2 := readEach_map (fun u =>
        let u := if u.head? = some ' ' then u.drop 1 else u
        if u.take 14 = t!"<PartialMove: " ∧ u.getLast? = some '>' then readPlay (u.drop 14).dropLast else none) l
        (fun pm => ' ' :: shown pm) (fun pm hq => readShown_one (h pm (List.mem_cons_of_mem _ hq)) true)
      rw [List.map_map]
      simp only [Bool.false_eq_true, if_false] at h1
      rw [show ((fun x => ' ' :: x) ∘ shown) = fun pm => ' ' :: shown pm from rfl]
      simp only [h1, h2]
      rfl

example : moveRepr [⟨6, 23, 17, true⟩, ⟨5, 3, -1, false⟩] = .ok t!"<Move: [<PartialMove: 24/18*>, <PartialMove: 4/off>]>" := by
  decide

/-- **C81** A move without plays is shown as `o-o`, and only that. -/
theorem C81_dance (l : List PartialMove) (h : ∀ pm ∈ l, OnPlaces pm) :
    moveText l = .ok t!"o-o" ↔ l = [] := by
  constructor
  · intro e
    have := C81_inj l [] h (by simp) e
    cases l with
    | nil => rfl
    | cons p l => cases this
  · rintro rfl; rfl

/-- **C81** is false of the dice: the text does not say which die was used, and bearing off with a five or a six
from the five point are told apart only by it. -/
theorem C81_false_die : ∃ p q : PartialMove, OnPlaces p ∧ OnPlaces q ∧ p ≠ q ∧ moveText [p] = moveText [q] :=
  ⟨⟨5, 4, -1, false⟩, ⟨6, 4, -1, false⟩, by unfold OnPlaces; decide, by unfold OnPlaces; decide, by decide,
    by decide⟩

/-- **C81** is false beyond the board: a place above the bar has no text (`ValueError`), and every place below
`off` is shown as `off`. -/
theorem C81_false_outside : (∀ pm : PartialMove, 24 < pm.src → pmText pm = .error .valueError) ∧
    (∀ pm : PartialMove, -1 ≤ pm.src → pm.src ≤ 24 → pm.dest < 0 →
      pmText pm = pmText { pm with dest := -1 }) := by
  constructor
  · intro pm h
    unfold pmText moveNtop
    rw [if_neg (by omega), if_neg (by omega), if_neg (by omega)]
    rfl
  · intro pm h1 h2 h
    unfold pmText
    have : moveNtop pm.dest = moveNtop (-1) := by unfold moveNtop; rw [if_pos h, if_pos (by decide)]
    rw [this]

example : ∃ pm : PartialMove, -1 ≤ pm.src ∧ pm.src ≤ 24 ∧ pm.dest < -1 := ⟨⟨6, 3, -3, false⟩, by decide⟩

/-! ### Taking back -/

private theorem remove_mem {p : PartialMove} : ∀ {l : List PartialMove}, p ∈ l →
    ∃ qs, removeInvertible p.inverse l = some qs := by
  intro l h
  induction l with
  | nil => cases h
  | cons q l ih =>
    unfold removeInvertible
    by_cases hq : q.areInvertible p.inverse = true
    · rw [if_pos hq]; exact ⟨_, rfl⟩
    · rw [if_neg hq]
      rcases List.mem_cons.1 h with e | e
      · subst e
        exact absurd (by simp [PartialMove.areInvertible, PartialMove.inverse]) hq
      · obtain ⟨qs, hqs⟩ := ih e
        rw [hqs]; exact ⟨_, rfl⟩

private theorem inverse_inj {p q : PartialMove} (h : p.inverse = q.inverse) : p = q := by
  cases p; cases q
  simp only [PartialMove.inverse, PartialMove.mk.injEq] at h ⊢
  exact ⟨h.1, h.2.2.1, h.2.1, h.2.2.2⟩

private theorem append_inverse {p : PartialMove} {l : List PartialMove} (h : p ∈ l) :
    l.Perm (p :: moveAppend l p.inverse) := by
  rcases moveAppend_cases l p.inverse with e | ⟨q, hq, e⟩
  · obtain ⟨qs, hqs⟩ := remove_mem (List.mem_reverse.2 h)
    have hm : moveAppend l p.inverse = qs.reverse := by unfold moveAppend; rw [hqs]
    obtain ⟨r, l1, l2, e1, e2, -⟩ := removeInvertible_some hqs
    have l1' : l.reverse.length = qs.length + 1 := by rw [e1, e2]; simp; omega
    rw [hm] at e
    have := congrArg List.length e
    simp at this l1'
    omega
  · rwa [← inverse_inj e] at hq

/-- **C81** Taking back: adding the inverses of all plays of a move, in any order, leaves a move without
plays.  So the `assert len(mf.move) == 0` of `is_leagal_to_pickup_dice` (move.py:231) never fails. -/
theorem C81_takeback (l l' : List PartialMove) (h : l.Perm l') :
    moveAdd l (l'.map PartialMove.inverse) = [] := by
  unfold moveAdd
  induction l' generalizing l with
  | nil => simpa using h
  | cons p l' ih =>
    rw [List.map_cons, List.foldl_cons]
    apply ih
    have hp : p ∈ l := h.mem_iff.2 (by simp)
    exact ((append_inverse hp).symm.trans h).cons_inv

example : moveAdd [⟨6, 23, 17, true⟩, ⟨6, 17, 11, false⟩]
    ([⟨6, 17, 11, false⟩, ⟨6, 23, 17, true⟩].map PartialMove.inverse) = [] := by decide

/-! ### The dice left -/

/-- Reads the dice after the words. -/
def Spec.readDice (t : Text) : Option (List Int) :=
  if t.take 19 = t!"Available to play: " then
    if t.drop 19 = [] then some []
    else readEach (fun u => pyInt u) (splitChar ',' (t.drop 19))
  else none

private theorem readEach_ints (l : List Int) :
    readEach (fun u => pyInt u) (l.map fun n => ' ' :: pyStr n) = some l := by
  induction l with
  | nil => rfl
  | cons n l ih =>
    rw [List.map_cons, readEach, ih]
    have : pyInt (' ' :: pyStr n) = pyInt (pyStr n) := by
      unfold pyInt
      rw [show List.dropWhile isSpace (' ' :: pyStr n) = List.dropWhile isSpace (pyStr n) from rfl]
    rw [this, pyInt_pyStr]

private def pips (a : Avail) : List Int :=
  [(1, a.d1), (2, a.d2), (3, a.d3), (4, a.d4), (5, a.d5), (6, a.d6)].flatMap
    fun (p : Int × Nat) => List.replicate p.2 p.1

private theorem availText_pips (a : Avail) :
    availText a = t!"Available to play: " ++ joinComma ((pips a).map pyStr) := by
  unfold availText pips
  rw [List.map_flatMap]
  simp only [List.map_replicate]

private theorem pyStr_chars : ∀ d ∈ [(1:Int),2,3,4,5,6], ',' ∉ pyStr d ∧ ' ' ∉ pyStr d := by decide

private theorem pips_mem {a : Avail} {d : Int} (h : d ∈ pips a) : d ∈ [(1:Int),2,3,4,5,6] := by
  unfold pips at h
  rw [List.mem_flatMap] at h
  obtain ⟨p, hp, hd⟩ := h
  have := (List.mem_replicate.1 hd).2
  subst this
  simp only [List.mem_cons, List.not_mem_nil, or_false] at hp ⊢
  rcases hp with rfl | rfl | rfl | rfl | rfl | rfl <;> simp

/-- **C81** The text of the dice left shows each die as often as it may still be played. -/
theorem C81_dice (a : Avail) : ∃ l, readDice (availText a) = some l ∧
    ∀ d n, a.count d = some n → l.count d = n := by
  refine ⟨pips a, ?_, ?_⟩
  · rw [availText_pips]
    unfold readDice
    rw [if_pos (by simp), show (t!"Available to play: " ++ joinComma ((pips a).map pyStr)).drop 19 =
      joinComma ((pips a).map pyStr) from by rw [List.drop_left' (by decide)]]
    cases hl : pips a with
    | nil => rfl
    | cons d l =>
      have hmem : ∀ u ∈ pyStr d :: l.map pyStr, ',' ∉ u ∧ ' ' ∉ u := by
        intro u hu
        rw [← List.map_cons, List.mem_map] at hu
        obtain ⟨e, he, rfl⟩ := hu
        exact pyStr_chars e (pips_mem (hl ▸ he))
      have hs := split_join (pyStr d) (l.map pyStr) (fun u hu => (hmem u hu).1) [] (by decide)
      rw [List.nil_append, List.nil_append] at hs
      rw [List.map_cons, if_neg, hs, readEach, pyInt_pyStr, List.map_map]
      · have := readEach_ints l
        change readEach _ (l.map ((' ' :: ·) ∘ pyStr)) = _ at this
        rw [this]
      · intro e
        rw [e] at hs
        have h2 := List.cons.inj hs
        have : pyStr d = [] := h2.1.symm
        have h3 := pyInt_pyStr d
        rw [this] at h3
        cases h3
  · intro d n h
    unfold pips
    simp only [List.flatMap_cons, List.flatMap_nil, List.append_nil, List.count_append, List.count_replicate]
    unfold Avail.count at h
    repeat' split at h
    all_goals first
      | (injection h with h; subst h; subst_vars; simp)
      | cases h

example : availText (Avail.ofRoll (3, 3)) = t!"Available to play: 3, 3, 3, 3" ∧
    (Avail.ofRoll (3, 3)).count 3 = some 4 := by decide

end Bglib
