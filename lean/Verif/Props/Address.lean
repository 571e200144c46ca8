import Verif.Lemmas.Address
import Verif.Props.Doctree
/-
C71: the addresses of pictures in wiki text.
-/
namespace Bglib
open Spec Doc

/-- **C71** The arguments of the macro are accepted exactly if they begin with a GNUBG ID. -/
theorem C71_accepts (s : Text) : (parseArgs s ≠ none ↔ ∃ id r, IsId id ∧ s = id ++ r) ∧
    parsePosition (some s) = .ok ((parseArgs s).map fun a => (a.gnubgid.take 14, a.gnubgid.drop 15)) := by
  constructor
  · rw [← id_take]
    constructor
    · intro h
      exact Classical.byContradiction fun hn => h (parse_none s hn)
    · intro h
      rw [parse_id s h]
      simp
  · have hmem : (fun c => CharSet.mem ⟨false, idChars⟩ c) = IdChar := funext idChars_mem
    unfold parsePosition
    simp only
    have e : (fun c => CharSet.mem ⟨false, [('a', 'z'), ('A', 'Z'), ('0', '9'), ('/', '/'), ('+', '+')]⟩ c) = IdChar := hmem
    simp only [e]
    by_cases h : (s.take 14).all IdChar ∧ s[14]? = some ':' ∧ 27 ≤ s.length ∧ ((s.drop 15).take 12).all IdChar
    · rw [if_pos ⟨h.2.2.1, h.1, h.2.1, h.2.2.2⟩, parse_id s h]
      simp only [Option.map_some, List.take_take, List.drop_take]
      rfl
    · rw [if_neg (fun hh => h ⟨hh.2.1, hh.2.2.1, hh.1, hh.2.2.2⟩), parse_none s h]
      rfl

/-- **C71** What is read from accepted arguments, for every text behind the ID. -/
theorem C71_read (id r : Text) (h : IsId id) :
    parseArgs (id ++ r) = some ⟨id, (readOptions r).1, (readOptions r).2.1, (readOptions r).2.2.1,
      (readOptions r).2.2.2⟩ := by
  have hl : id.length = 27 := by
    obtain ⟨p, m, rfl, hp, hm, _⟩ := h
    simp only [List.length_append, List.length_cons]; omega
  have := parse_id (id ++ r) ((id_take _).2 ⟨id, r, h, rfl⟩)
  rw [List.take_append_of_le_length (by omega), List.take_of_length_le (by omega),
    List.drop_append_of_le_length (by omega), List.drop_of_length_le (by omega), List.nil_append] at this
  exact this

/-- The ID of the start of a match. -/
theorem isId_ex : IsId t!"4HPwATDgc/ABMA:MAAAAAAAAAAA" :=
  ⟨t!"4HPwATDgc/ABMA", t!"MAAAAAAAAAAA", rfl, rfl, rfl, by decide, by decide⟩

example : readOptions t!", css=safari,width300" = (t!"safari", t!"png", t!"300", t!"300") := by decide

/-- **C71** (what holds of the options) Options in this order, each of them present or not, and written
`css=`, `format`, `width` and `height` with no equals sign behind the last three, have their effect. -/
theorem C71_options_partial (id : Text) (h : IsId id) (a b c d : Nat) (css format width height : Option Text)
    (h1 : GoodValue AsciiLetter css) (h2 : GoodValue AsciiLetter format) (h3 : GoodValue AsciiDigit width)
    (h4 : GoodValue AsciiDigit height) :
    parseArgs (id ++ (writeOption t!"css=" a css ++ (writeOption t!"format" b format ++
        (writeOption t!"width" c width ++ writeOption t!"height" d height)))) =
      some ⟨id, css.getD t!"minimal", format.getD t!"png", width.getD t!"400", height.getD t!"300"⟩ := by
  rw [C71_read id _ h]
  have e4 := option_written t!"height" AsciiDigit t!"300" d height h4 (by decide) (by decide) [] (Or.inl rfl) (by decide)
  rw [List.append_nil] at e4
  have e3 := option_written t!"width" AsciiDigit t!"400" c width h3 (by decide) (by decide)
    (writeOption t!"height" d height) (begins_write _ _ _ ) (other_option _ _ _ _ (by decide) (by decide) (by decide))
  have n1 : readOption t!"format" AsciiLetter (writeOption t!"width" c width ++ writeOption t!"height" d height) = none := by
    cases width with
    | none => exact other_option _ _ _ _ (by decide) (by decide) (by decide)
    | some v => exact other_option' _ _ _ _ _ (by decide) (by decide) (by decide)
  have e2 := option_written t!"format" AsciiLetter t!"png" b format h2 (by decide) (by decide)
    (writeOption t!"width" c width ++ writeOption t!"height" d height) (begins_append (begins_write _ _ _) (begins_write _ _ _)) n1
  have n2 : readOption t!"css=" AsciiLetter (writeOption t!"format" b format ++
      (writeOption t!"width" c width ++ writeOption t!"height" d height)) = none := by
    cases format with
    | some v => exact other_option' _ _ _ _ _ (by decide) (by decide) (by decide)
    | none =>
      cases width with
      | none => exact other_option _ _ _ _ (by decide) (by decide) (by decide)
      | some v => exact other_option' _ _ _ _ _ (by decide) (by decide) (by decide)
  have e1 := option_written t!"css=" AsciiLetter t!"minimal" a css h1 (by decide) (by decide) _
    (begins_append (begins_write _ _ _) (begins_append (begins_write _ _ _) (begins_write _ _ _))) n2
  simp only [readOptions, e1, e2, e3, e4]

example : GoodValue AsciiLetter (some t!"safari") ∧ GoodValue AsciiDigit (some t!"300") := by
  constructor <;> (intro t ht; cases ht; decide)

/-- **C71** A server that gets the address of the picture, whatever the order of the items of the
dictionary, reads the ID and the options; the attribute ends at its quotation mark and a reader of the
HTML finds the address. -/
theorem C71_address (s : Text) (a : PicArgs) (h : parseArgs s = some a) (l : List (Text × Text))
    (hl : l.Perm a.items) :
    ∃ q, pictureSrc l = t!"/image?" ++ q ∧ readQuery q = l ∧ unescape (escape (pictureSrc l)) = pictureSrc l ∧
      '"' ∉ escape (pictureSrc l) := by
  have hb : ∀ x ∈ l, Bytes x.1 ∧ Bytes x.2 := fun x hx => items_bytes s a h x ((hl.mem_iff).1 hx)
  have hne : l ≠ [] := by
    intro e
    have := hl.length_eq
    rw [e] at this
    simp [PicArgs.items] at this
  have hq : '"' ∉ pictureSrc l := by
    unfold pictureSrc
    simp only [List.mem_append, not_or]
    exact ⟨by decide, urlencode_noquote l hb⟩
  refine ⟨urlencode l, rfl, readQuery_urlencode l hne hb, C36_lossless _, ?_⟩
  obtain ⟨inner, h1, h2, _⟩ := C60_partial [] (pictureSrc l) hq
  have : inner = escape (pictureSrc l) := by
    have e : attributeText [] (pictureSrc l) = [] ++ '=' :: '"' :: escape (pictureSrc l) ++ ['"'] := rfl
    rw [e] at h1
    simpa using h1.symm
  rw [← this]; exact h2

example : ∃ a, parseArgs t!"4HPwATDgc/ABMA:MAAAAAAAAAAA, css=safari" = some a ∧
    pictureSrc a.items = t!"/image?gnubgid=4HPwATDgc%2FABMA%3AMAAAAAAAAAAA&css=safari&format=png&width=400&height=300" := by
  refine ⟨_, C71_read t!"4HPwATDgc/ABMA:MAAAAAAAAAAA" t!", css=safari" isId_ex, by decide⟩

/-- Full statement of C71 for sizes: a width given with an equals sign, as for `css`, is the width. -/
def C71_statement : Prop := ∀ id w : Text, IsId id → w ≠ [] → w.all AsciiDigit → ∃ a,
  parseArgs (id ++ (t!",width=" ++ w)) = some a ∧ a.width = w

/-- **C71 is false** of the code: a format, width or height with an equals sign is left out without a
message, together with all that follows. -/
theorem C71_false_equals (id r : Text) (h : IsId id) (k : Text) (hk : k = t!"format" ∨ k = t!"width" ∨ k = t!"height") :
    parseArgs (id ++ (',' :: k ++ '=' :: r)) = some ⟨id, t!"minimal", t!"png", t!"400", t!"300"⟩ := by
  rw [C71_read id _ h]
  rcases hk with rfl | rfl | rfl <;> rfl

theorem C71_false : ¬ C71_statement := by
  intro h
  obtain ⟨a, h1, h2⟩ := h _ t!"300" isId_ex (by decide) (by decide)
  have := C71_false_equals t!"4HPwATDgc/ABMA:MAAAAAAAAAAA" t!"300" isId_ex t!"width" (Or.inr (Or.inl rfl))
  rw [show (',' :: t!"width" ++ '=' :: t!"300") = t!",width=" ++ t!"300" from rfl, h1] at this
  injection this with this
  rw [this] at h2
  exact absurd h2 (by decide)

/-- **C71** The style has to come first: behind another option it is left out. -/
theorem C71_false_order (id r : Text) (h : IsId id) (k : Text) (hk : k = t!"format" ∨ k = t!"width" ∨ k = t!"height") :
    ∃ a, parseArgs (id ++ (',' :: k ++ r)) = some a ∧ a.css = t!"minimal" := by
  refine ⟨_, C71_read id _ h, ?_⟩
  rcases hk with rfl | rfl | rfl <;> rfl

end Bglib
