import Verif.Lemmas.Turn
import Verif.Props.Moves
/-
C16 (suggested single moves are legal), C17 (suggested combined moves), C18 (dice bookkeeping),
C19 (when dice may be picked up), C44 (every legal single move is found), C45 (making a point),
C46 (a rejected movement changes nothing).
-/
namespace Bglib
open Spec Factory

/-! ### C16 -/

/-- **C16**, from a source: whatever is suggested starts where asked, uses a die still to be played and
is a legal movement (bar first, landing point open, hit flag exactly for a blot, bear-off only with all
home and a fitting die).  For every board, dice and source, also sources outside the board. -/
theorem C16_source (b : Board) (a : Avail) (src : Int) (pm : PartialMove) (hv : Valid b)
    (h : fromSource b a src = .ok (some pm)) :
    pm.src = src ∧ pm.die ∈ diceLeft a ∧
      LegalStep (mine b) (theirs b) pm.die pm.src pm.dest pm.isHitting := by
  obtain ⟨_, _, h1, h2, h3, _⟩ := fromSource_none_or hv a src pm h
  exact ⟨h1, (mem_diceLeft a _).2 h2, h3⟩

example : Valid exHit ∧ fromSource exHit (Avail.ofRoll (2, 1)) 5 = .ok (some ⟨2, 5, 3, true⟩) :=
  ⟨exHit_valid, by decide⟩

/-- **C16**, the largest die that can be played legally from the source is preferred. -/
theorem C16_source_max (b : Board) (a : Avail) (src : Int) (pm : PartialMove) (hv : Valid b)
    (h : fromSource b a src = .ok (some pm)) :
    ∀ die ∈ diceLeft a, ∀ dest hit, LegalStep (mine b) (theirs b) die src dest hit → die ≤ pm.die := by
  obtain ⟨_, _, _, _, _, h4⟩ := fromSource_none_or hv a src pm h
  intro die hd dest hit hl
  apply Classical.byContradiction
  intro hc
  exact h4 die ((mem_diceLeft a _).1 hd) (by omega) dest hit hl

/-- **C16**, towards a destination. -/
theorem C16_dest (b : Board) (a : Avail) (dest : Int) (pm : PartialMove) (hv : Valid b)
    (h : fromDest b a dest = .ok (some pm)) :
    pm.dest = dest ∧ pm.die ∈ diceLeft a ∧
      LegalStep (mine b) (theirs b) pm.die pm.src pm.dest pm.isHitting := by
  obtain ⟨h1, h2, h3⟩ := destLoop_sound hv dest _ a pm h
  exact ⟨h1, (mem_diceLeft a _).2 h2, h3⟩

example : fromDest exHit (Avail.ofRoll (2, 1)) 3 = .ok (some ⟨2, 5, 3, true⟩) := by decide

/-! ### C44 -/

/-- **C44**, from a source: the answer is always a suggestion or a refusal, never an exception, and it
is a refusal only if no die still to be played moves a chequer legally from there. -/
theorem C44_source (b : Board) (a : Avail) (src : Int) (hv : Valid b) (h0 : 0 ≤ src) (h1 : src ≤ 24) :
    ∃ r, fromSource b a src = .ok r ∧
      (r = none ↔ ¬ ∃ die ∈ diceLeft a, ∃ dest hit, LegalStep (mine b) (theirs b) die src dest hit) := by
  obtain ⟨r, hr, hi⟩ := fromSource_ok hv a h0 h1
  refine ⟨r, hr, ?_⟩
  rw [← hi]
  cases r <;> simp

example : ∃ die ∈ diceLeft (Avail.ofRoll (3, 1)), ∃ dest hit,
    LegalStep (mine exBoard) (theirs exBoard) die 7 dest hit :=
  ⟨3, by decide, 4, false, Or.inl (by unfold LegalMove; decide)⟩

/-- Full statement of C44 for destinations: every legal movement to a destination is found. -/
def C44_dest_statement : Prop := ∀ (b : Board) (a : Avail) (dest die src : Int) (hit : Bool),
  Valid b → die ∈ diceLeft a → LegalStep (mine b) (theirs b) die src dest hit →
  ∃ pm, fromDest b a dest = .ok (some pm)

/-- One chequer left, on the ace point, 6-5 rolled. -/
def exAce : Board :=
  { exBoard with position := ([1,0,0,0,0,0,0,0,0,0,0,0,0,0,0,0,0,0,0,0,0,0,0,0,0], initialRow),
                 rolled := (6, 5) }

theorem exAce_valid : Valid exAce := by
  refine ⟨Or.inl rfl, ⟨rfl, ?_⟩, exBoard_valid.theirs_row⟩
  intro i
  by_cases h : i < 25
  · have : ∀ j < 25, 0 ≤ cnt (mine exAce) j := by decide
    exact this i h
  · rw [show (_ : Int) = 0 from cnt_out rfl (by omega)]; omega

/-- **C44 is false** for destinations: the last chequer on the ace point may be borne off with a six,
but no movement off the board is found. -/
theorem C44_dest_false : ¬ C44_dest_statement := by
  intro h
  have hl : LegalStep (mine exAce) (theirs exAce) 6 0 (-1) false := by
    refine Or.inr ⟨rfl, rfl, by decide, by decide, by decide, by decide, by decide, ?_, Or.inr ⟨by decide, ?_⟩⟩
    · intro i hi
      by_cases h25 : i < 25
      · have : ∀ j < 25, 6 ≤ j → cnt (mine exAce) j = 0 := by decide
        exact this i h25 hi
      · exact cnt_out rfl (by omega)
    · intro i hi
      by_cases h25 : i < 25
      · have : ∀ j < 25, (0 : Int) < (j : Nat) → cnt (mine exAce) j = 0 := by decide
        exact this i h25 hi
      · exact cnt_out rfl (by omega)
  obtain ⟨pm, hpm⟩ := h exAce (Avail.ofRoll (6, 5)) (-1) 6 0 false exAce_valid (by decide) hl
  have : fromDest exAce (Avail.ofRoll (6, 5)) (-1) = .ok none := by decide
  rw [this] at hpm; simp at hpm

/-- A second failure: asking for a destination within six points of the far end raises `IndexError`
when the bar is empty, although 24/21 with the 3 is legal. -/
theorem C44_dest_raises : fromDest exBoard (Avail.ofRoll (6, 3)) 20 = .error .indexError ∧
    LegalStep (mine exBoard) (theirs exBoard) 3 23 20 false :=
  ⟨by decide, Or.inl (by unfold LegalMove; decide)⟩

/-- **C44** for destinations, the part that holds: up to six points from the far end, or while on the
bar, there is no exception, and a refusal leaves only the bear-offs from the ace point with a larger
die undiscovered. -/
theorem C44_dest_partial (b : Board) (a : Avail) (dest : Int) (hv : Valid b) (h0 : -1 ≤ dest)
    (h1 : dest ≤ 18 ∨ (dest ≤ 23 ∧ cnt (mine b) 24 ≠ 0)) :
    ∃ r, fromDest b a dest = .ok r ∧ (r = none → ∀ die ∈ diceLeft a, ∀ src hit,
      LegalStep (mine b) (theirs b) die src dest hit → dest = -1 ∧ src = 0 ∧ die ≠ 1) := by
  obtain ⟨r, hr, hc⟩ := destLoop_complete hv h0 h1 (a.len + 1) a (by omega)
  exact ⟨r, hr, fun hn die hd src hit hl => hc hn die src hit ((mem_diceLeft a _).1 hd) hl⟩

example : LegalStep (mine exBoard) (theirs exBoard) 3 7 4 false := Or.inl (by unfold LegalMove; decide)

open Classical in
private theorem destLoop_point {b : Board} (hv : Valid b) {dest : Int} (h0 : 0 ≤ dest) (h1 : dest ≤ 23) :
    ∀ (fuel : Nat) (a : Avail), a.len < fuel →
      if cnt (mine b) 24 = 0 ∧ cnt (theirs b) (23 - dest).toNat < 2 ∧ ∃ die, 0 < a.num die ∧ 24 < dest + die then
        destLoop b dest fuel a = .error .indexError
      else ∃ r, destLoop b dest fuel a = .ok r ∧ (r = none → ∀ e src hit, 0 < a.num e →
        ¬ LegalStep (mine b) (theirs b) e src dest hit) := by
  have hs := hv.shape
  have hpt : isPoint dest = true := by simp [isPoint]; omega
  intro fuel
  induction fuel with
  | zero => intro a h; omega
  | succ fuel ih =>
    intro a hf
    unfold destLoop
    cases hm : a.getMax with
    | none =>
      have hz := Avail.getMax_none hm
      rw [if_neg (by rintro ⟨_, _, die, hd, _⟩; have := hz die; omega)]
      exact ⟨none, rfl, fun _ e src hit he => by have := hz e; omega⟩
    | some die =>
      obtain ⟨hp, hmax⟩ := Avail.getMax_some hm
      have hd := Avail.num_pos_die hp
      simp only
      rw [if_neg (by omega : ¬ dest = -1), if_pos hpt, isOpen_eq hs hpt]
      by_cases ho : cnt (theirs b) (23 - dest).toNat < 2
      · simp only [ho, decide_true, true_and]
        obtain ⟨a', ha', hl, hn⟩ := Avail.consume_ok hp
        by_cases hb : cnt (mine b) 24 = 0
        · by_cases h24 : dest + die ≤ 24
          · rw [if_neg (by rintro ⟨_, e, he, hlt⟩; have := hmax e he; omega), hasChequer_eq hs (by omega) h24]
            by_cases hmv : movable (mine b) (dest + die)
            · simp only [hmv, decide_true, isHitting_eq hs hpt]
              exact ⟨_, rfl, by simp⟩
            · simp only [hmv, decide_false, ha']
              have := ih a' (by omega)
              rw [if_neg (by rintro ⟨_, _, e, he, hlt⟩; have := hn e; have := hmax e (by omega); omega)] at this
              obtain ⟨r, hr, q⟩ := this
              refine ⟨r, hr, fun hrn e src hit he hle => ?_⟩
              by_cases hed : e = die
              · subst hed
                have hm' := legalStep_movable hle
                rcases hle with ⟨_, _, _, _, hde, _⟩ | ⟨h, _⟩
                · have : src = dest + e := by omega
                  subst this; exact hmv hm'.2.2
                · omega
              · exact q hrn e src hit (by have := hn e; simp only [hed, if_false] at this; omega) hle
          · rw [if_pos ⟨hb, die, hp, by omega⟩]
            have hc : b.hasChequerToMove (dest + die) = .error .indexError := by
              unfold Board.hasChequerToMove
              rw [rows_eq hs.turn]
              simp only [bind, Except.bind, pure, Except.pure]
              rw [pyGet_cnt hs.lm (by unfold BAR; omega) (by unfold BAR; omega)]
              simp only [show BAR.toNat = 24 from rfl, hb, if_true]
              have hlm := hs.lm
              have : pyGet (mine b) (dest + die) = .error .indexError := by
                have hi : pyIdx (mine b).length (dest + die) = none := by
                  unfold pyIdx
                  rw [if_pos (by omega), if_neg (by omega)]
                unfold pyGet
                rw [hi]
              rw [this]
            rw [hc]
        · rw [if_neg (by rintro ⟨h, _⟩; exact hb h)]
          have again : ∃ r, destLoop b dest fuel a' = .ok r ∧ (r = none → ∀ e src hit, 0 < a'.num e →
              ¬ LegalStep (mine b) (theirs b) e src dest hit) := by
            have := ih a' (by omega)
            rwa [if_neg (by rintro ⟨h, _⟩; exact hb h)] at this
          obtain ⟨r, hr, q⟩ := again
          have next : (¬ ∃ src hit, LegalStep (mine b) (theirs b) die src dest hit) →
              r = none → ∀ e src hit, 0 < a.num e → ¬ LegalStep (mine b) (theirs b) e src dest hit := by
            intro hbad hrn e src hit he hle
            by_cases hed : e = die
            · subst hed; exact hbad ⟨src, hit, hle⟩
            · exact q hrn e src hit (by have := hn e; simp only [hed, if_false] at this; omega) hle
          by_cases h24 : dest + die ≤ 24
          · rw [hasChequer_eq hs (by omega) h24]
            by_cases hmv : movable (mine b) (dest + die)
            · simp only [hmv, decide_true, isHitting_eq hs hpt]
              exact ⟨_, rfl, by simp⟩
            · simp only [hmv, decide_false, ha']
              refine ⟨r, hr, next ?_⟩
              rintro ⟨src, hit, hle⟩
              have hm' := legalStep_movable hle
              rcases hle with ⟨_, _, _, _, hde, _⟩ | ⟨h, _⟩
              · have : src = dest + die := by omega
                subst this; exact hmv hm'.2.2
              · omega
          · have hc : b.hasChequerToMove (dest + die) = .ok false := by
              unfold Board.hasChequerToMove
              rw [rows_eq hs.turn]
              simp only [bind, Except.bind, pure, Except.pure]
              rw [pyGet_cnt hs.lm (by unfold BAR; omega) (by unfold BAR; omega)]
              simp only [show BAR.toNat = 24 from rfl, hb, if_false]
              rw [if_neg (by unfold BAR; omega)]
            rw [hc]
            simp only [ha']
            refine ⟨r, hr, next ?_⟩
            rintro ⟨src, hit, ⟨_, _, _, _, hde, _⟩ | ⟨h, _⟩⟩
            · omega
            · omega
      · rw [if_neg (by rintro ⟨_, h, _⟩; exact ho h)]
        simp only [ho, decide_false]
        refine ⟨none, rfl, ?_⟩
        intro _ e src hit _ hl
        rcases hl with ⟨_, _, _, _, _, _, _, h, _⟩ | ⟨h, _⟩
        · exact ho h
        · omega

/-- **C44** for destinations on the board, exactly: asking is an `IndexError` if and only if the bar is
empty, the point is open and some die still to be played would come from beyond the bar; otherwise a
movement is found if and only if there is a legal one. -/
theorem C44_dest_exact (b : Board) (a : Avail) (dest : Int) (hv : Valid b) (h0 : 0 ≤ dest) (h1 : dest ≤ 23) :
    (cnt (mine b) 24 = 0 ∧ cnt (theirs b) (23 - dest).toNat < 2 ∧ (∃ die ∈ diceLeft a, 24 < dest + die) →
      fromDest b a dest = .error .indexError) ∧
    (¬ (cnt (mine b) 24 = 0 ∧ cnt (theirs b) (23 - dest).toNat < 2 ∧ ∃ die ∈ diceLeft a, 24 < dest + die) →
      ∃ r, fromDest b a dest = .ok r ∧ (r = none ↔
        ¬ ∃ die ∈ diceLeft a, ∃ src hit, LegalStep (mine b) (theirs b) die src dest hit)) := by
  have key := destLoop_point hv h0 h1 (a.len + 1) a (by omega)
  have hiff : (∃ die ∈ diceLeft a, 24 < dest + die) ↔ ∃ die, 0 < a.num die ∧ 24 < dest + die := by
    constructor
    · rintro ⟨die, h, h'⟩; exact ⟨die, (mem_diceLeft a _).1 h, h'⟩
    · rintro ⟨die, h, h'⟩; exact ⟨die, (mem_diceLeft a _).2 h, h'⟩
  rw [hiff]
  constructor
  · intro h; rw [if_pos h] at key; exact key
  · intro h
    rw [if_neg h] at key
    obtain ⟨r, hr, hn⟩ := key
    refine ⟨r, hr, fun hrn => ?_, fun hno => ?_⟩
    · rintro ⟨die, hd, src, hit, hl⟩
      exact hn hrn die src hit ((mem_diceLeft a _).1 hd) hl
    · cases r with
      | none => rfl
      | some pm =>
        obtain ⟨p1, p2, p3⟩ := C16_dest b a dest pm hv hr
        exact absurd ⟨pm.die, p2, pm.src, pm.isHitting, by rw [p1] at p3; exact p3⟩ hno

/-- C44_dest_exact has instances of both kinds. -/
example : (cnt (mine exBoard) 24 = 0 ∧ cnt (theirs exBoard) (23 - 20 : Int).toNat < 2 ∧
    ∃ die ∈ diceLeft (Avail.ofRoll (6, 3)), 24 < 20 + die) ∧
    fromDest exBoard (Avail.ofRoll (3, 1)) 4 = .ok (some ⟨3, 7, 4, false⟩) := by decide

/-! ### C17 -/

/-- **C17**: a combined move that is returned consists of legal movements, each on the board left by
the one before, leading from the source to the destination with different dice still to be played. -/
theorem C17_play (b : Board) (a : Avail) (src dest : Int) (pms : List PartialMove) (hv : Valid b)
    (h : (multiplePms b a src dest).res = .ok (some pms)) :
    pms ≠ [] ∧ Leads pms src dest ∧ UsesDice pms (diceLeft a) ∧ ∃ b', PlayTo b pms b' := by
  obtain ⟨res, he, _, h2⟩ := multiLoop_spec (dest := dest) (a.len + 1) b src a [] hv (by omega)
    (by intro p hp; simp at hp)
  unfold multiplePms at h
  rw [he] at h
  obtain ⟨c, hc, r⟩ := h2 pms h
  simp only [List.nil_append] at hc
  subst hc
  exact r

/-- **C17**: whatever the outcome (play, refusal, exception), the board is exactly as before. -/
theorem C17_board (b : Board) (a : Avail) (src dest : Int) (hv : Valid b) :
    (multiplePms b a src dest).st = b := by
  obtain ⟨res, he, _⟩ := multiLoop_spec (dest := dest) (a.len + 1) b src a [] hv (by omega)
    (by intro p hp; simp at hp)
  unfold multiplePms
  rw [he]

/-- **C17**: from a place of the board to a lower one there is no exception. -/
theorem C17_total (b : Board) (a : Avail) (src dest : Int) (hv : Valid b) (h0 : dest < src)
    (h1 : 0 ≤ src) (h2 : src ≤ 24) : ∃ r, (multiplePms b a src dest).res = .ok r := by
  obtain ⟨res, he, h, _⟩ := multiLoop_spec (dest := dest) (a.len + 1) b src a [] hv (by omega)
    (by intro p hp; simp at hp)
  unfold multiplePms
  rw [he]
  exact h h0 (by omega) h2

/-- Hitting twice: 8/4*/1* with 4-3. -/
example : Valid exHit ∧ (multiplePms exHit (Avail.ofRoll (4, 3)) 7 0).res =
    .ok (some [⟨4, 7, 3, true⟩, ⟨3, 3, 0, true⟩]) := ⟨exHit_valid, by decide⟩

/-! ### C18 -/

/-- Full statement of C18: any accepted history of movements inside the board. -/
def C18_statement : Prop := ∀ (b : Board) (hist : List PartialMove) (f : Factory), Valid b →
  (1 ≤ b.rolled.1 ∧ b.rolled.1 ≤ 6) → (1 ≤ b.rolled.2 ∧ b.rolled.2 ≤ 6) →
  (∀ pm ∈ hist, -1 ≤ pm.src ∧ pm.src ≤ 24 ∧ -1 ≤ pm.dest ∧ pm.dest ≤ 24) →
  (Factory.new b).addAll hist = ⟨f, none⟩ →
  b.make f.move = ⟨f.board, none⟩ ∧
    (spent f.move ++ diceLeft f.avail).Perm (diceOf b.rolled ++ givenBack f.move)

/-- **C18 is false** for histories with dances (a movement from a place to itself, which the code
foresees in `is_dance`): appending one twice records nothing but uses up two dice. -/
theorem C18_false : ¬ C18_statement := by
  intro h
  have := (h { exBoard with rolled := (3, 3) } [⟨3, 24, 24, false⟩, ⟨3, 24, 24, false⟩]
    ⟨{ exBoard with rolled := (3, 3) }, [], { d3 := 2 }⟩
    ⟨exBoard_valid.turn, exBoard_valid.mine_row, exBoard_valid.theirs_row⟩ (by decide) (by decide)
    (by decide) (by decide)).2
  exact absurd (this.count_eq 3) (by decide)

/-- **C18**, histories without dances: the board is the starting board with the recorded move played,
and the dice of the roll (with those given back by recorded backward movements) are exactly the dice
spent by the recorded move and those still to be played.  Any mix of movements and undos, in any
order. -/
theorem C18_partial (b : Board) (hist : List PartialMove) (f : Factory) (hv : Valid b)
    (h1 : 1 ≤ b.rolled.1 ∧ b.rolled.1 ≤ 6) (h2 : 1 ≤ b.rolled.2 ∧ b.rolled.2 ≤ 6)
    (hin : ∀ pm ∈ hist, -1 ≤ pm.src ∧ pm.src ≤ 24 ∧ -1 ≤ pm.dest ∧ pm.dest ≤ 24 ∧ pm.src ≠ pm.dest)
    (h : (Factory.new b).addAll hist = ⟨f, none⟩) :
    b.make f.move = ⟨f.board, none⟩ ∧
      (spent f.move ++ diceLeft f.avail).Perm (diceOf b.rolled ++ givenBack f.move) := by
  have h0 : Book b (Factory.new b) := by
    refine ⟨by simp [Factory.new], rfl, ?_⟩
    intro d
    simp [Factory.new, spent, givenBack, num_ofRoll h1 h2]
  have hb := book_addAll hv.shape h0 hin (by rw [h])
  rw [h] at hb
  refine ⟨?_, ?_⟩
  · rw [make_eq hv.shape hb.inb, hb.board]
  · rw [List.perm_iff_count]
    intro d
    rw [List.count_append, List.count_append, count_diceLeft]
    exact hb.dice d

/-- **C18**, in the plain case that no undo outran the play: spent plus remaining is the roll. -/
theorem C18_plain_partial (b : Board) (hist : List PartialMove) (f : Factory) (hv : Valid b)
    (h1 : 1 ≤ b.rolled.1 ∧ b.rolled.1 ≤ 6) (h2 : 1 ≤ b.rolled.2 ∧ b.rolled.2 ≤ 6)
    (hin : ∀ pm ∈ hist, -1 ≤ pm.src ∧ pm.src ≤ 24 ∧ -1 ≤ pm.dest ∧ pm.dest ≤ 24 ∧ pm.src ≠ pm.dest)
    (h : (Factory.new b).addAll hist = ⟨f, none⟩) (hf : ∀ pm ∈ f.move, pm.dest < pm.src) :
    (f.move.map (·.die) ++ diceLeft f.avail).Perm (diceOf b.rolled) := by
  have := (C18_partial b hist f hv h1 h2 hin h).2
  have e1 : spent f.move = f.move.map (·.die) := by
    unfold spent
    rw [List.filter_eq_self.2 (by intro pm hm; simpa using hf pm hm)]
  have e2 : givenBack f.move = [] := by
    unfold givenBack
    rw [List.filter_eq_nil_iff.2 (by intro pm hm; have := hf pm hm; simp; omega)]
    rfl
  rw [e1, e2] at this
  simpa using this

/-- 8/5, 6/5, then 8/5 taken back: one die spent. -/
example : (Factory.new exBoard).addAll [⟨3, 7, 4, false⟩, ⟨1, 5, 4, false⟩, ⟨3, 4, 7, false⟩] =
    ⟨⟨{ exBoard with position := ([0,0,0,0,1,4,0,3,0,0,0,0,5,0,0,0,0,0,0,0,0,0,0,2,0], initialRow) },
      [⟨1, 5, 4, false⟩], { d3 := 1 }⟩, none⟩ := by decide

/-! ### C46 -/

/-- Full statement of C46: a movement that is refused leaves the factory as it was. -/
def C46_statement : Prop := ∀ (f : Factory) (pm : PartialMove) (f' : Factory) (e : PyErr),
  f.append pm = ⟨f', some e⟩ → f' = f

/-- **C46 is false**: a six that was not rolled is refused, but stays in the recorded move. -/
theorem C46_false : ¬ C46_statement := by
  intro h
  have := h (Factory.new exBoard) ⟨6, 23, 17, false⟩
    ⟨exBoard, [⟨6, 23, 17, false⟩], { d1 := 1, d3 := 1 }⟩ .bareRaise (by decide)
  exact absurd this (by decide)

/-- **C46**, the part that holds: the board is as before whenever a movement is refused. -/
theorem C46_board_partial (f : Factory) (pm : PartialMove) (f' : Factory) (e : PyErr)
    (h : f.append pm = ⟨f', some e⟩) : f'.board = f.board := by
  unfold Factory.append at h
  simp only at h
  split at h
  · simp only [Step.mk.injEq] at h; rw [← h.1]
  · split at h
    · simp only [Step.mk.injEq] at h; rw [← h.1]
    · simp at h

example : ∃ f', (Factory.new exBoard).append ⟨6, 23, 17, false⟩ = ⟨f', some .bareRaise⟩ := ⟨_, rfl⟩

/-! ### C45 -/

/-- Full statement of C45: a suggestion to make a point consists of two legal movements to it, played
one after the other with different dice, and asking leaves the board alone. -/
def C45_statement : Prop := ∀ (b : Board) (dest : Int), Valid b →
  ((Factory.new b).makingPoint dest).st = b ∧
  ∀ pms, ((Factory.new b).makingPoint dest).res = .ok (some pms) → UsesDice pms (diceOf b.rolled)

/-- **C45 is false**: asked to make the five point with 3-1, the answer is 8/5 twice, both with the
three; and one of them has been played on the board. -/
theorem C45_false : ¬ C45_statement := by
  intro h
  have h2 := (h exBoard 4 exBoard_valid).2 [⟨3, 7, 4, false⟩, ⟨3, 7, 4, false⟩] (by decide)
  exact absurd (h2 3) (by decide)

theorem C45_board_false : ∃ b dest, Valid b ∧ ((Factory.new b).makingPoint dest).st ≠ b :=
  ⟨exBoard, 4, exBoard_valid, by decide⟩

/-- **C45**, the part that holds: both movements are legal one after the other, end on the point asked
for, and each alone uses a die of the roll. -/
theorem C45_legal_partial (f : Factory) (dest : Int) (pms : List PartialMove) (hv : Valid f.board)
    (h : (f.makingPoint dest).res = .ok (some pms)) :
    pms.length = 2 ∧ (∀ pm ∈ pms, pm.dest = dest ∧ pm.die ∈ diceLeft f.avail) ∧
      ∃ b', PlayTo f.board pms b' := by
  unfold Factory.makingPoint at h
  cases h1 : fromDest f.board f.avail dest with
  | error e => rw [h1] at h; simp at h
  | ok r =>
    cases r with
    | none => rw [h1] at h; simp at h
    | some pm =>
      obtain ⟨p1, p2, p3⟩ := C16_dest _ _ _ _ hv h1
      obtain ⟨b1, hb1, hst, hv1, _⟩ := step_exists hv p3
      rw [h1] at h
      simp only [hb1] at h
      cases h2 : (Avail.ofRoll f.board.rolled).consume pm.die with
      | error e => rw [h2] at h; simp at h
      | ok _ =>
        rw [h2] at h
        simp only at h
        cases h3 : fromDest b1 f.avail dest with
        | error e => rw [h3] at h; simp at h
        | ok r =>
          cases r with
          | none => rw [h3] at h; simp at h
          | some pm' =>
            rw [h3] at h
            simp only [Except.ok.injEq, Option.some.injEq] at h
            subst h
            obtain ⟨q1, q2, q3⟩ := C16_dest _ _ _ _ hv1 h3
            obtain ⟨b2, _, hst2, _, _⟩ := step_exists hv1 q3
            refine ⟨rfl, ?_, b2, .cons hst (.cons hst2 (.nil _))⟩
            intro x hx
            simp only [List.mem_cons, List.not_mem_nil, or_false] at hx
            rcases hx with rfl | rfl
            · exact ⟨p1, p2⟩
            · exact ⟨q1, q2⟩

example : ((Factory.new exBoard).makingPoint 4).res =
    .ok (some [⟨3, 7, 4, false⟩, ⟨3, 7, 4, false⟩]) := by decide

end Bglib
