import Verif.Model.Mag
/-
Model of `bglib/image/PIL.py`: the device that turns the operations of a drawing into a picture.

The Python Imaging Library is outside of the repository; what it answers is an input (`Library`).
-/
namespace Bglib.Img
open Bglib

/-- A font loaded in a size. -/
structure Font where
  uri : Text
  size : Int
  deriving DecidableEq, Repr

/-- An image after `transpose` and `resize`; `alpha`: its mode is RGBA. -/
structure Pict where
  uri : Text
  size : Int × Int
  flip : Bool
  alpha : Bool
  deriving DecidableEq, Repr

/-- The library: whether a font can be loaded in a size, how large a text is, whether a file is an image (and
has the mode RGBA), whether an image can be brought to a size. -/
structure Library where
  truetype : Text → Int → Py Unit
  getsize : Font → Text → Int × Int
  open_ : Text → Py Bool
  resize : Text → Int × Int → Py Unit

/-- The keys of the cache, PIL.py:61, 65, 70, 76: pairs for fonts, triples for images. -/
inductive CacheKey where
  | font (uri : Text) (size : Int)
  | image (uri : Text) (size : Int × Int) (flip : Bool)
  deriving DecidableEq, Repr

/-- What is kept in the cache. -/
inductive Cached where
  | font (f : Font)
  | image (p : Pict)
  deriving DecidableEq, Repr

abbrev Cache := List (CacheKey × Cached)

/-- A method of the device: the cache afterwards and the result or the exception. -/
abbrev Dev (α : Type) := Cache → Cache × Py α

def Dev.ok {α : Type} (a : α) : Dev α := fun c => (c, .ok a)

def Dev.fail {α : Type} (e : PyErr) : Dev α := fun c => (c, .error e)

def Dev.andThen {α β : Type} (x : Dev α) (f : α → Dev β) : Dev β := fun c =>
  match x c with
  | (c', .ok a) => f a c'
  | (c', .error e) => (c', .error e)

/-- `load_font`, PIL.py:60-66; the assertion is about the address of the font. -/
def loadFont (L : Library) (uri : Text) (size : Int) : Dev Font := fun c =>
  match c.lookup (.font uri size) with
  | some (.font f) => (c, .ok f)
  | some (.image _) => (c, .error .typeError)
  | none =>
    if uri = [] then (c, .error .assertion)
    else match L.truetype uri size with
      | .error e => (c, .error e)
      | .ok () => ((.font uri size, .font ⟨uri, size⟩) :: c, .ok ⟨uri, size⟩)

/-- `load_image`, PIL.py:68-77; the flip comes before the resizing -/
def loadImage (L : Library) (uri : Text) (size : Int × Int) (flip : Bool) : Dev Pict := fun c =>
  match c.lookup (.image uri size flip) with
  | some (.image p) => (c, .ok p)
  | some (.font _) => (c, .error .typeError)
  | none =>
    match L.open_ uri with
    | .error e => (c, .error e)
    | .ok alpha =>
      match L.resize uri size with
      | .error e => (c, .error e)
      | .ok () => ((.image uri size flip, .image ⟨uri, size, flip, alpha⟩) :: c, .ok ⟨uri, size, flip, alpha⟩)

/-- The loop of `calc_font_size`, PIL.py:32-41, at the size `fsize`; `n` is how many smaller sizes follow (down
to 8, PIL.py:37).  The second part is the size of the text last measured. -/
def tryFonts (L : Library) (uri : Text) (size : Int × Int) (s : Text) : Nat → Int → Dev (Option Int × (Int × Int))
  | n, fsize => (loadFont L uri fsize).andThen fun f =>
    let m := L.getsize f s
    if m.1 ≥ size.1 ∨ m.2 ≥ size.2 then
      match n with
      | 0 => Dev.ok (none, m)
      | n + 1 => tryFonts L uri size s n (fsize - 1)
    else Dev.ok (some fsize, m)

/-- `calc_font_size`, PIL.py:31-41 -/
def calcFontSize (L : Library) (uri : Text) (size : Int × Int) (s : Text) : Dev (Option Int × (Int × Int)) :=
  tryFonts L uri size s (size.2 - 8).toNat size.2

/-- What the library is told to paint: corners as they are given, both belonging to the shape. -/
inductive Paint where
  | rect (a b : Int × Int) (fill : Text)
  | ellipse (a b : Int × Int) (fill : Option Text)
  | polygon (pts : List (Int × Int)) (fill : Option Text)
  | text (at_ : Int × Int) (s : Text) (font : Font) (fill : Text)
  | image (p : Pict) (a b : Int × Int)
  deriving DecidableEq, Repr

/-- `draw_text`, PIL.py:48-58; `/` rounds down. -/
def drawText (L : Library) (pos size : Int × Int) (s uri fill : Text) : Dev (List Paint) :=
  (calcFontSize L uri size s).andThen fun r =>
    match r.1 with
    | none => Dev.ok []
    | some fsize => (loadFont L uri fsize).andThen fun f =>
      Dev.ok [.text (pos.1 + (size.1 - r.2.1) / 2, pos.2 + (size.2 - r.2.2) / 2) s f fill]

/-- `paste_image`, PIL.py:79-90; the mask is left out. -/
def pasteImage (p : Pict) (pos size : Int × Int) : Dev (List Paint) :=
  if p.size.1 ≠ size.1 ∨ p.size.2 ≠ size.2 then Dev.fail .assertion
  else Dev.ok [.image p pos (pos.1 + size.1, pos.2 + size.2)]

/-- What the device does for an operation of the drawing, PIL.py:48-111. -/
def paintOp (L : Library) : Op → Dev (List Paint)
  | .text pos size s uri fill => drawText L pos size s uri fill
  | .ellipse pos size fill => Dev.ok [.ellipse pos (pos.1 + size.1, pos.2 + size.2) fill]
  | .polygon pts fill => Dev.ok [.polygon pts fill]
  | .rect pos size fill => Dev.ok [.rect pos (pos.1 + size.1 - 1, pos.2 + size.2 - 1) fill]
  | .image uri size flip pos => (loadImage L uri size flip).andThen fun p => pasteImage p pos size

def paintAll (L : Library) : List Op → Dev (List Paint)
  | [] => Dev.ok []
  | o :: os => (paintOp L o).andThen fun a => (paintAll L os).andThen fun b => Dev.ok (a ++ b)

/-- The operations of a drawing, draw.py:35-43: `drawSized` without the assertion about the list, which the
device here does not make (PIL.py:27-29). -/
def opsSized (rules : List Rule) (size : Int × Int) (b : Board) : Py (List Op) :=
  match ETree.create.set b with
  | .error x => .error x
  | .ok t =>
    match t.board.styled rules [] with
    | .error x => .error x
    | .ok t =>
      match treeMag t size with
      | .error x => .error x
      | .ok mag => t.drawn (applyMag mag) []

/-- `draw` on the device, draw.py:35-47.  The operations are known before they are painted; when both the
drawing and the device fail, the exception is that of the drawing, and what was loaded for it is not kept.  A
device context left behind by an exception is deleted at the next call (draw.py:36-37), so that only the cache is
kept from one picture to the next. -/
def drawOn (L : Library) (rules : List Rule) (size : Int × Int) (b : Board) : Dev (List Paint) :=
  match opsSized rules size b with
  | .error e => Dev.fail e
  | .ok ops => paintAll L ops

/-- The cache after lists of operations have been painted, each up to its first exception. -/
def history (L : Library) : List (List Op) → Cache → Cache
  | [], c => c
  | l :: ls, c => history L ls (paintAll L l c).1

end Bglib.Img
