import Verif.Model.Doctree
import Verif.Model.Pattern
/-
Model of the wiki formatter `bglib/doc/bgwiki.py` and its macros `bglib/doc/macro.py`.

The document is that of `Verif.Model.Doctree`.  What this needs to know about nodes beyond their class is
kept beside it, by the number of the node: attributes of links, the style of list items, the text in a
`{{{` block, the node of a table of contents.  A `WrappingFormatterElement` is a plain element in the
document (only the root takes either; it is left only while it is the current node), a
`TableOfContentNode` a macro node.

Simplifications: text is us-ascii; the attribute `src` of positions and the `class` attributes of spans
and tables made by macros are left out; the numbers in an analysis come as formatted text, and are of the
types the macros assert.
-/
namespace Bglib.Doc
open Bglib

/-! ### The patterns of a line, bgwiki.py:148-199 -/

/-- The names of the patterns. -/
inductive Pat where
  | bolditalic | bold | italic | underline | strike | subscript | superscript | monospace
  | preformatStart | preformatEnd | monospaceStart | monospaceEnd | h3 | h2 | h1 | macro
  | entryLink | queryLink | matchLink | tableEnd | tableCell | schemeUrl | schemeWikiname | autoAnchor
  | camelcase | itemize | citation | definitionHeader | quote | escapeHtml | rest
  deriving DecidableEq, Repr

/-- `!?` -/
def bang : Re := .opt (.ch '!')

/-- bgwiki.py:158 -/
def urlRe (name : Text) : Re :=
  .group name (.all' [.lit t!"http", .opt (.ch 's'), .lit t!"://",
    .plus (.any [('a', 'z'), ('A', 'Z'), ('0', '9'), ('_', '_'), ('~', '~'), ('#', '#'), ('=', '='), ('?', '?'),
      ('.', '.'), ('/', '/'), ('-', '-'), ('&', '&'), ('%', '%')])])

/-- bgwiki.py:186-192 -/
def itemizeRe : Re := .all' [.bol, .plus (.ch ' '), .alts [
    .group t!"star" (.ch '*'),
    .group t!"sign" (.alt (.group t!"plus" (.rep (.ch '+') 1 (some 3))) (.group t!"minus" (.rep (.ch '-') 1 (some 3)))),
    .group t!"ordered_numeric" (.seq (.any [('1', '8')]) (.opt (.ch '.'))),
    .group t!"ordered_alpha" (.seq (.any [('a', 'h')]) (.opt (.ch '.'))),
    .group t!"ordered_roman" (.seq (.plus (.any [('i', 'i'), ('v', 'v')])) (.opt (.ch '.')))],
  .ch ' ']

/-- bgwiki.py:176 -/
def macroRe : Re := .all' [.lit t!"[[", .group t!"macro_name" (.plus (.any wordChars)),
  .opt (.all' [.ch '(', .group t!"macro_args" (.plus (.any [('a', 'z'), ('A', 'Z'), ('0', '9'), ('+', '+'), (',', ','),
    (' ', ' '), ('.', '.'), ('=', '='), ('/', '/'), ('#', '#'), (':', ':')])), .ch ')']), .lit t!"]]"]

/-- `[A-Z][a-z0-9]+`, bgwiki.py:185 -/
def hump : Re := .seq (.any [('A', 'Z')]) (.plus (.any [('a', 'z'), ('0', '9')]))

/-- The alternatives in their order. -/
def linePatterns : List (Pat × Re) := [
  (.bolditalic, .seq bang (.lit t!"'''''")),
  (.bold, .seq bang (.lit t!"'''")),
  (.italic, .seq bang (.lit t!"''")),
  (.underline, .seq bang (.lit t!"__")),
  (.strike, .seq bang (.lit t!"~~")),
  (.subscript, .seq bang (.lit t!",,")),
  (.superscript, .seq bang (.ch '^')),
  (.monospace, .seq bang (.ch '`')),
  (.preformatStart, .all' [bang, .bol, .lit t!"{{{", .eol]),
  (.preformatEnd, .all' [bang, .bol, .lit t!"}}}", .eol]),
  (.monospaceStart, .seq bang (.lit t!"{{{")),
  (.monospaceEnd, .seq bang (.lit t!"}}}")),
  (.h3, .seq bang (.lit t!"===")),
  (.h2, .seq bang (.lit t!"==")),
  (.h1, .seq bang (.ch '=')),
  (.macro, macroRe),
  (.entryLink, .all' [bang, .alt (.ch '#') (.lit t!"entry:"), .plus (.any digits)]),
  (.queryLink, .seq bang (.alt (.seq (.lit t!"query:") (.plus (.any digits)))
    (.all' [.ch '{', .plus (.any digits), .ch '}']))),
  (.matchLink, .seq bang (.alts [.seq (.ch 'm') (.plus (.any digits)), .seq (.lit t!"match:") (.plus (.any digits)),
    .all' [.ch '[', .plus (.any digits), .ch ']']])),
  (.tableEnd, .all' [bang, .lit t!"||", .star (.any spaces), .eol]),
  (.tableCell, .seq bang (.lit t!"||")),
  (.schemeUrl, .all' [bang, .ch '[', urlRe t!"url_1",
    .opt (.group t!"disp" (.seq (.ch ' ') (.plus (.set ⟨true, [(']', ']')]⟩)))), .ch ']']),
  (.schemeWikiname, .all' [bang, .lit t!"[wiki:", .plus (.any [('A', 'Z'), ('a', 'z')]), .ch ']']),
  (.autoAnchor, .seq bang (urlRe t!"url_2")),
  (.camelcase, .all' [bang, hump, .plus hump]),
  (.itemize, itemizeRe),
  (.citation, .all' [.bol, .plus (.ch '>'), .ch ' ']),
  (.definitionHeader, .seq (.lit t!"::") .eol),
  (.quote, .seq .bol (.rep (.ch ' ') 2 none)),
  (.escapeHtml, .any [('<', '<'), ('>', '>'), ('&', '&'), ('?', '?')]),
  (.rest, .set ⟨true, [('\n', '\n')]⟩)]

/-- `groupdict().get(name)` -/
def groupOf (g : List (Text × Text)) (name : Text) : Option Text :=
  (g.find? fun x => x.1 = name).map (·.2)

/-! ### The formatter -/

/-- What is known of a node beside its class. -/
inductive Extra where
  /-- the attributes of a link -/
  | attrs (l : List (Text × Text))
  /-- a list item; `false` if its list has the design `sign` but the item has no sign -/
  | item (ok : Bool)
  /-- a `{{{` block: the text collected, and whether docutils formats it -/
  | block (buf : Text) (rst : Bool)
  | toc
  deriving DecidableEq, Repr

/-- The tables of an analysis, with formatted numbers: cubeless equities and cube actions, or moves. -/
inductive Analysis where
  | cube (cubeless : List Text) (rows : List (Int × List Text))
  | moves (rows : List (Int × List Text))
  deriving DecidableEq, Repr

/-- What is outside: the time, the path of wiki pages, the analyses (`none`: `setup` was not called),
docutils. -/
structure Env where
  now : Text := []
  wikipath : Text := ['/']
  db : Option (Text → Text → Analysis) := none
  rst : Text → List Tok := fun _ => []

/-- `Formatter` and its editor. -/
structure Wiki where
  doc : Editor
  side : List (Nat × Extra)
  deriving DecidableEq, Repr

/-- bgwiki.py:512-520 -/
def Wiki.start : Wiki := ⟨Editor.start, []⟩

/-- What is known of node `i`. -/
def Wiki.extra (w : Wiki) (i : Nat) : Option Extra := (w.side.find? fun x => x.1 = i).map (·.2)

/-- `editor.enter(klass, **d)` -/
def Wiki.enter (w : Wiki) (k : Klass) (x : Option Extra := none) : Py Wiki :=
  match w.doc.append k with
  | .error e => .error e
  | .ok (d, i) => .ok ⟨{ d with current := some i }, match x with
    | none => w.side
    | some x => (i, x) :: w.side⟩

/-- `editor.leave(klasses)` -/
def Wiki.leave (w : Wiki) (ks : List Klass) : Py Wiki :=
  match w.doc.climb (fun n => ks.any fun k => n.klass.isA k) (w.doc.nodes.length + 1) w.doc.current with
  | .error x => .error x
  | .ok none => .ok w
  | .ok (some i) => .ok { w with doc := { w.doc with current := w.doc.parentOf i } }

/-- `editor.ancestor(klasses)` -/
def Wiki.ancestor (w : Wiki) (ks : List Klass) : Py (Option Nat) :=
  w.doc.climb (fun n => ks.any fun k => n.klass.isA k) (w.doc.nodes.length + 1) w.doc.current

/-- `editor.append_text(t)` -/
def Wiki.text (w : Wiki) (t : Text) : Py Wiki :=
  match w.doc.appendText t with
  | .error x => .error x
  | .ok d => .ok { w with doc := d }

/-- `editor.count_nesting(klass)`, doctree.py:360-367 -/
def Wiki.countNesting (w : Wiki) (k : Klass) : Nat → Option Nat → Py Nat
  | _, none => .ok 0
  | 0, some _ => .error .diverges
  | fuel + 1, some i =>
    match w.doc.nodes[i]? with
    | none => .error .attributeError
    | some n =>
      match w.countNesting k fuel n.parent with
      | .error x => .error x
      | .ok m => .ok (m + if n.klass.isA k then 1 else 0)

def Wiki.nesting (w : Wiki) (k : Klass) : Py Nat := w.countNesting k (w.doc.nodes.length + 1) w.doc.current

/-- bgwiki.py:59-63 -/
def Wiki.startIfNone (w : Wiki) (k : Klass) : Py Wiki := do
  match ← w.ancestor [k] with
  | none => w.enter k
  | some _ => return w

/-- bgwiki.py:65-71 -/
def Wiki.startOrEnd (w : Wiki) (k : Klass) : Py Wiki := do
  match ← w.ancestor [k] with
  | none => w.enter k
  | some _ => w.leave [k]

/-- A loop. -/
def times (f : Wiki → Py Wiki) : Nat → Wiki → Py Wiki
  | 0, w => .ok w
  | n + 1, w => do times f n (← f w)

/-! ### Macros, macro.py:48-527 -/

/-- `enter`, `append_text`, `leave` -/
def cell (k : Klass) (t : Text) : List Op := [.enter k, .text t, .leave k]

/-- `CubeAction_table_header`, macro.py:243-258 -/
def cubeHeader : List Op :=
  [.enter .tableRow] ++ cell .tableHeader t!"#" ++ cell .tableHeader t!"action" ++
    cell .tableHeader t!" Cubeful Eq. " ++ [.leave .tableRow]

/-- A row with a header and cells, macro.py:280-293, 380-396 -/
def rowOps (nth : Int) (cells : List Text) : List Op :=
  [.enter .tableRow] ++ cell .tableHeader (pyStr nth) ++ cells.flatMap (cell .tableCell) ++ [.leave .tableRow]

/-- `Movelisting_header`, macro.py:298-337 -/
def moveHeader : List Op :=
  [.enter .tableRow] ++ [t!"#", t!"move", t!"Ply", t!"Eq.(diff)"].flatMap (cell .tableHeader) ++ [.leave .tableRow] ++
  [.enter .tableRow] ++ [t!"Win", t!"WinG", t!"WinBg", t!"Lose", t!"LoseG", t!"LoseBg"].flatMap (cell .tableHeader) ++
  [.leave .tableRow]

/-- `CubelessEquity`, macro.py:428-527; the texts are ply, equity, and the six chances -/
def cubelessOps (t : List Text) : List Op :=
  [.enter .table, .enter .tableRow] ++ cell .tableHeader t!"Ply" ++ cell .tableHeader t!"Cubeless Eq. " ++
  [.leave .tableRow, .enter .tableRow] ++
  [t!"Win", t!"WinG", t!"WinBg", t!"Lose", t!"LoseG", t!"LoseBg"].flatMap (cell .tableHeader) ++
  [.leave .tableRow, .enter .tableRow] ++ (t.take 2).flatMap (cell .tableCell) ++
  [.leave .tableRow, .enter .tableRow] ++ (t.drop 2).flatMap (cell .tableCell) ++ [.leave .tableRow, .leave .table]

/-- The second row of a move, macro.py:399-423 -/
def chanceRow (cells : List Text) : List Op :=
  [.enter .tableRow] ++ cells.flatMap (cell .tableCell) ++ [.leave .tableRow]

/-- macro.py:224-238: the operations when the rows are numbered properly -/
def analysisOps : Analysis → List Op
  | .cube c rows => cubelessOps c ++ [.enter .table] ++ cubeHeader ++
      rows.flatMap (fun r => rowOps r.1 r.2) ++ [.leave .table]
  | .moves rows => [.enter .table] ++ moveHeader ++
      rows.flatMap (fun r => rowOps r.1 (r.2.take 3) ++ chanceRow (r.2.drop 3)) ++ [.leave .table]

/-- `assert i + 1 == row['nth']`, macro.py:229, 236 -/
def Analysis.numbered : Analysis → Bool
  | .cube _ rows | .moves rows => rows.map (·.1) = (List.range rows.length).map fun (i : Nat) => (i : Int) + 1

/-- Operations of the editor that need nothing else. -/
def Wiki.run (w : Wiki) (os : List Op) : Py Wiki :=
  match w.doc.run os with
  | .error x => .error x
  | .ok d => .ok { w with doc := d }

/-- `_parse_position`, macro.py:182-205, whether it accepts: a GNUBG ID comes first.  `None` instead of
text is a TypeError. -/
def parsePosition (args : Option Text) : Py (Option (Text × Text)) :=
  match args with
  | none => .error .typeError
  | some s =>
    let b64 (c : Char) : Bool := CharSet.mem ⟨false, [('a', 'z'), ('A', 'Z'), ('0', '9'), ('/', '/'), ('+', '+')]⟩ c
    if 27 ≤ s.length ∧ (s.take 14).all b64 ∧ s[14]? = some ':' ∧ ((s.drop 15).take 12).all b64 then
      .ok (some (s.take 14, (s.drop 15).take 12))
    else .ok none

/-- `args or 'None'` -/
def orNone (args : Option Text) : Text := match args with
  | none => t!"None"
  | some [] => t!"None"
  | some s => s

/-- macro.py:59-66 -/
def badName (name : Text) (args : Option Text) : List Op :=
  cell .span (t!"No such macro \"" ++ escape name ++ t!"\" with argument \"" ++ escape (orNone args) ++ t!"\"")

/-- macro.py:68-71 -/
def badArgs (name : Text) (args : Option Text) : List Op :=
  cell .span (t!"Bad args \"" ++ escape (orNone args) ++ t!"\" for " ++ name ++ t!"\n")

/-- `dispatch`, macro.py:48-56, with the registered macros, macro.py:77-91, 177-180, 207-240 -/
def Wiki.dispatch (w : Wiki) (env : Env) (name : Text) (args : Option Text) : Py Wiki :=
  if name = t!"BR" then w.run [.enter .br, .leave .br]
  else if name = t!"Timestamp" then w.run (cell .bold env.now)
  else if name = t!"TableOfContent" then
    match w.doc.append .macro with
    | .error x => .error x
    | .ok (d, i) => .ok ⟨d, (i, .toc) :: w.side⟩
  else if name = t!"Position" then
    match parsePosition args with
    | .error x => .error x
    | .ok none => w.run (badArgs name args)
    | .ok (some _) => w.run [.enter .span, .enter .img, .leave .span]
  else if name = t!"Analysis" then
    match parsePosition args with
    | .error x => .error x
    | .ok none => w.run (badArgs name args)
    | .ok (some (p, m)) =>
      match env.db with
      | none => .error .attributeError
      | some f => if (f p m).numbered then w.run (analysisOps (f p m)) else .error .assertion
  else w.run (badName name args)

/-! ### The handlers, bgwiki.py:240-509 -/

/-- A link: enter, text, leave. -/
def Wiki.link (w : Wiki) (attrs : List (Text × Text)) (t : Text) : Py Wiki := do
  let w ← w.enter .anchor (some (.attrs attrs))
  let w ← w.text t
  w.leave [.anchor]

/-- A link with an icon. -/
def Wiki.extLink (w : Wiki) (attrs : List (Text × Text)) (t : Text) : Py Wiki := do
  let w ← w.enter .anchor (some (.attrs attrs))
  let w ← w.enter .span
  let w ← w.text t
  let w ← w.leave [.span]
  w.leave [.anchor]

/-- `match[a:-1]` -/
def inner (m : Text) (a : Nat) : Text := (m.drop a).dropLast

/-- bgwiki.py:414-425 -/
def entryAttrs (m : Text) : List (Text × Text) :=
  [(t!"class", t!"entry"), (t!"title", m),
   (t!"href", t!"/entry/" ++ if m.head? = some '#' then m.drop 1 else m.drop 6)]

/-- bgwiki.py:427-438 -/
def queryAttrs (m : Text) : List (Text × Text) :=
  [(t!"class", t!"query"), (t!"title", m),
   (t!"href", t!"/query/" ++ if m.head? = some '{' then inner m 1 else m.drop 6)]

/-- bgwiki.py:440-453 -/
def matchAttrs (m : Text) : List (Text × Text) :=
  [(t!"class", t!"match"), (t!"title", t!"title"),
   (t!"href", t!"/match/" ++ if m.head? = some '[' then inner m 1
     else if m.take 6 = t!"match:" then m.drop 6 else m.drop 1)]

/-- bgwiki.py:392-395 -/
def Wiki.startDefinition (w : Wiki) : Py Wiki := do
  let w ← w.startIfNone .definitionList
  w.enter .definitionHeader

/-- bgwiki.py:397-400 -/
def Wiki.endDefinition (w : Wiki) : Py Wiki := do
  let w ← w.leave [.definitionHeader]
  w.enter .definitionBody

/-- The design of a list from the groups; at most one of them has matched. -/
def designOf (g : List (Text × Text)) : Design :=
  if (groupOf g t!"sign").isSome then .sign
  else if (groupOf g t!"ordered_numeric").isSome then .numeric
  else if (groupOf g t!"ordered_alpha").isSome then .alpha
  else if (groupOf g t!"ordered_roman").isSome then .roman
  else .star

/-- The class of the current node. -/
def Editor.currentKlass (e : Editor) : Option Klass := (e.current.bind fun c => e.nodes[c]?).map (·.klass)

/-- bgwiki.py:388-390 with `get_style`, doctree.py:268-269: an AttributeError if the current node is not a
list. -/
def Wiki.enterItem (w : Wiki) (g : List (Text × Text)) : Py Wiki :=
  match w.doc.currentKlass with
  | some (.list d) => w.enter .itemize (some (.item (d ≠ some .sign || (groupOf g t!"sign").isSome)))
  | _ => .error .attributeError

/-- bgwiki.py:369-387: to the list of the item, from `nest` lists before any were left -/
def Wiki.toList (w : Wiki) (indent nest : Nat) (g : List (Text × Text)) : Py Wiki :=
  if indent ≤ nest then w.leave [.itemize]
  else do
    let w ← times (fun w => w.enter (.list (some .star))) (indent - nest - 1) w
    w.enter (.list (some (designOf g)))

/-- bgwiki.py:363-390 -/
def Wiki.itemize (w : Wiki) (m : Text) (g : List (Text × Text)) : Py Wiki := do
  let indent := (m.takeWhile (· = ' ')).length
  let nest ← w.nesting (.list none)
  let w ← times (fun w => w.leave [.list none]) (nest - indent) w
  let w ← w.toList indent nest g
  w.enterItem g

/-- bgwiki.py:348-361 -/
def Wiki.cite (w : Wiki) (m : Text) : Py Wiki := do
  let indent := (m.takeWhile (· = '>')).length
  let nest ← w.nesting .citation
  let w ← times (fun w => w.leave [.citation]) (nest - indent) w
  let w ← times (fun w => w.enter .citation) (indent - nest) w
  w.startIfNone .citationContent

/-- bgwiki.py:402-412 -/
def Wiki.quote (w : Wiki) : Py Wiki := do
  match ← w.ancestor [.definitionList] with
  | some _ =>
    match ← w.ancestor [.definitionBody] with
    | some i => return { w with doc := { w.doc with current := some i } }
    | none => w.enter .definitionBody
  | none => w.startIfNone .blockQuote

/-- bgwiki.py:252-263 -/
def Wiki.boldItalic (w : Wiki) : Py Wiki := do
  match ← w.ancestor [.bold, .italic] with
  | some _ =>
    let w ← w.leave [.bold]
    w.leave [.italic]
  | none =>
    let w ← w.enter .bold
    w.enter .italic

/-- bgwiki.py:308-316 -/
def Wiki.tableCell (w : Wiki) : Py Wiki := do
  let w ← w.startIfNone .table
  let w ← w.startIfNone .tableRow
  let w ← w.leave [.tableCell]
  w.enter .tableCell

/-- bgwiki.py:488-503 -/
def Wiki.schemeUrl (w : Wiki) (g : List (Text × Text)) : Py Wiki :=
  let url := escape ((groupOf g t!"url_1").getD [])
  let disp := match groupOf g t!"disp" with
    | some d => escape (d.drop 1)
    | none => url
  w.extLink [(t!"class", t!"ext-link"), (t!"title", disp), (t!"href", url)] disp

/-- The handlers; two patterns have none. -/
def Wiki.handle (w : Wiki) (env : Env) (p : Pat) (m : Text) (g : List (Text × Text)) : Py Wiki :=
  match p with
  | .rest => w.text m
  | .escapeHtml => w.text (escape m)
  | .bold => w.startOrEnd .bold
  | .italic => w.startOrEnd .italic
  | .bolditalic => w.boldItalic
  | .underline => w.startOrEnd .underline
  | .strike => w.startOrEnd .strike
  | .subscript => w.startOrEnd .sub
  | .superscript => w.startOrEnd .sup
  | .h3 => w.startOrEnd .h3
  | .h2 => w.startOrEnd .h2
  | .h1 => w.startOrEnd .h1
  | .monospace => w.startOrEnd .monospace
  | .monospaceStart => w.enter .monospace
  | .monospaceEnd => w.leave [.monospace]
  | .tableCell => w.tableCell
  | .tableEnd => w.leave [.tableRow]
  | .preformatStart => w.enter .element (some (.block [] false))
  | .preformatEnd | .definitionHeader => .ok w
  | .citation => w.cite m
  | .itemize => w.itemize m g
  | .quote => w.quote
  | .entryLink => w.link (entryAttrs m) m
  | .queryLink => w.link (queryAttrs m) m
  | .matchLink => w.link (matchAttrs m) m
  | .camelcase => w.link [(t!"class", t!"wiki-link"), (t!"title", m), (t!"href", env.wikipath ++ m)] m
  | .autoAnchor => w.extLink [(t!"class", t!"ext-link"), (t!"title", t!"title"), (t!"href", escape m)] m
  | .schemeWikiname => w.link [(t!"class", t!"wiki-link"), (t!"title", inner m 6),
      (t!"href", env.wikipath ++ inner m 6)] (inner m 6)
  | .schemeUrl => w.schemeUrl g
  | .macro => w.dispatch env ((groupOf g t!"macro_name").getD []) (groupOf g t!"macro_args")

/-- bgwiki.py:224-233: one match.  The groups inside the patterns have no handlers and never start with an
exclamation mark. -/
def Wiki.item (w : Wiki) (env : Env) (x : Pat × Text × List (Text × Text)) : Py Wiki :=
  if x.2.1.head? = some '!' ∧ x.1 ≠ .rest then w.text (escape (x.2.1.drop 1))
  else w.handle env x.1 x.2.1 x.2.2

def Wiki.items (w : Wiki) (env : Env) : List (Pat × Text × List (Text × Text)) → Py Wiki
  | [] => .ok w
  | x :: xs => do (← w.item env x).items env xs

/-- `line.endswith('::')` -/
def endsDefinition (line : Text) : Bool := line.reverse.take 2 = t!"::"

/-- `if b: …` -/
def Wiki.onlyIf (w : Wiki) (b : Bool) (f : Wiki → Py Wiki) : Py Wiki := if b then f w else .ok w

/-- `LineFormatter.parse`, bgwiki.py:210-238 -/
def Wiki.parseLine (w : Wiki) (env : Env) (line : Text) : Py Wiki :=
  match line with
  | [] => do
    let w ← w.leave [.div]
    return { w with doc := w.doc.done }
  | c :: _ => do
    let w ← w.startIfNone .div
    let w ← w.onlyIf (c ≠ ' ') (·.leave [.blockQuote, .definitionBody])
    let w ← w.onlyIf (c ≠ '>') (·.leave [.citation])
    let w ← w.onlyIf (endsDefinition line) (·.startDefinition)
    let w ← w.items env (finditer linePatterns line)
    w.onlyIf (endsDefinition line) (·.endDefinition)

/-- The block the current node is, bgwiki.py:523 -/
def Wiki.block (w : Wiki) : Option (Nat × Text × Bool) :=
  match w.doc.current with
  | none => none
  | some c => match w.extra c with
    | some (.block buf rst) => some (c, buf, rst)
    | _ => none

/-- `WrappingFormatterElement.parse`, bgwiki.py:109-132, for a line: its patterns are the end token, a
line `#!` with a word, and any line. -/
def Wiki.parseBlock (w : Wiki) (c : Nat) (buf : Text) (rst : Bool) (line : Text) : Py Wiki :=
  if line = t!"}}}" then w.leave [.element]
  else if line.take 2 = t!"#!" ∧ line.drop 2 ≠ [] ∧ (line.drop 2).all (CharSet.mem ⟨false, wordChars⟩) then
    .ok { w with side := (c, .block buf (decide (line.drop 2 = t!"rst"))) :: w.side }
  else .ok { w with side := (c, .block (buf ++ line ++ ['\n']) rst) :: w.side }

/-- bgwiki.py:529-531 -/
def Wiki.line (w : Wiki) (env : Env) (line : Text) : Py Wiki :=
  match w.block with
  | some (c, buf, rst) => w.parseBlock c buf rst line
  | none => w.parseLine env line

/-- `str.splitlines` -/
def splitLines : Text → Text → List Text
  | [], [] => []
  | acc, [] => [acc.reverse]
  | acc, '\r' :: '\n' :: r => acc.reverse :: splitLines [] r
  | acc, '\n' :: r => acc.reverse :: splitLines [] r
  | acc, '\r' :: r => acc.reverse :: splitLines [] r
  | acc, c :: r => splitLines (c :: acc) r

def Wiki.lines (w : Wiki) (env : Env) : List Text → Py Wiki
  | [] => .ok w
  | l :: ls => do (← w.line env l).lines env ls

/-- `Formatter.parse`, bgwiki.py:528-531 -/
def Wiki.parse (w : Wiki) (env : Env) (text : Text) : Py Wiki := w.lines env (splitLines [] text)

/-! ### HTML -/

/-- The nodes below a node in the order of visiting. -/
def Editor.visited (e : Editor) : Nat → Nat → List Nat
  | 0, _ => []
  | fuel + 1, i =>
    match e.nodes[i]? with
    | none => []
    | some n => i :: (n.children.map (e.visited fuel)).flatten

/-- The level of a heading, macro.py:98-102 -/
def Klass.level : Klass → Option Nat
  | .h1 => some 0
  | .h2 => some 1
  | .h3 => some 2
  | _ => none

/-- `de_anchor`, macro.py:124-135: the text, or `None` -/
def Editor.deAnchor (e : Editor) (i : Nat) : Option Text :=
  match e.nodes[i]? with
  | none => none
  | some n =>
    if n.klass = .text then some n.text
    else if n.klass = .anchor then
      some (n.children.flatMap fun j => match e.nodes[j]? with
        | some m => if m.klass = .text then m.text else []
        | none => [])
    else none

/-- The headings of a document with their levels and what `de_anchor` gives for the children. -/
def Editor.headings (e : Editor) : List (Nat × List (Option Text)) :=
  (e.visited (e.nodes.length + 1) 0).filterMap fun i =>
    (e.nodes[i]?).bind fun n => n.klass.level.map fun l => (l, n.children.map e.deAnchor)

/-- New text nodes below the current node. -/
def Wiki.addTexts (w : Wiki) : List Text → Py Wiki
  | [] => .ok w
  | t :: ts =>
    match w.doc.current with
    | none => .error .attributeError
    | some c =>
      Wiki.addTexts ⟨⟨w.doc.nodes.modify c (fun n => { n with children := n.children ++ [w.doc.nodes.length] }) ++
        [⟨.text, some c, [], t⟩], some c⟩, w.side⟩ ts

/-- `match_nesting`, macro.py:109-122: from nesting `m` to `n` -/
def Wiki.matchNesting (w : Wiki) (m n : Nat) : Py Wiki := do
  let w ← times (fun w => w.enter (.list (some .numeric))) (n - m) w
  times (fun w => w.leave [.list none]) (m - n) w

/-- macro.py:144-149: the item with its link; a child `None` is left out here, see `tocHtml` -/
def Wiki.tocItem (w : Wiki) (children : List (Option Text)) : Py Wiki := do
  let w ← w.enter .itemize
  let w ← w.enter .anchor
  let w ← w.addTexts (children.filterMap id)
  let w ← w.leave [.anchor]
  w.leave [.itemize]

/-- One heading in the table of contents, macro.py:138-151; `get_style` is an AttributeError if the
current node is not a list. -/
def Wiki.tocEntry (w : Wiki) (nesting : Nat) (h : Nat × List (Option Text)) : Py Wiki := do
  let w ← w.matchNesting nesting h.1
  match w.doc.currentKlass with
  | some (.list _) => w.tocItem h.2
  | _ => .error .attributeError

def Wiki.tocEntries (w : Wiki) (nesting : Nat) : List (Nat × List (Option Text)) → Py Wiki
  | [] => .ok w
  | h :: hs => do (← w.tocEntry nesting h).tocEntries h.1 hs

/-- `TableOfContentNode.open`, macro.py:153-174.  A child `None` cannot be visited. -/
def tocHtml (doc : Editor) : Py (List Tok) := do
  let w ← Wiki.start.enter (.list (some .numeric))
  let w ← w.tocEntries 0 doc.headings
  if doc.headings.any (fun h => h.2.any Option.isNone) then .error .attributeError else w.doc.html

/-- `open` -/
def Wiki.opens (w : Wiki) (i : Nat) (n : Node) : Py (List Tok) :=
  match w.extra i with
  | some (.item false) => .error .keyError
  | some .toc => tocHtml w.doc
  | _ => n.opens

/-- `close`; a block is written here, bgwiki.py:96-100, 136-143 -/
def Wiki.closes (w : Wiki) (env : Env) (i : Nat) (n : Node) : Py (List Tok) :=
  match w.extra i with
  | some (.block buf rst) =>
    if rst then .ok (env.rst buf) else .ok [.opening t!"pre", .text (escape buf), .closing t!"pre"]
  | _ => n.closes

/-- The writer visiting node `i`. -/
def Wiki.accept (w : Wiki) (env : Env) : Nat → Nat → Py (List Tok)
  | 0, _ => .error .diverges
  | fuel + 1, i =>
    match w.doc.nodes[i]? with
    | none => .error .attributeError
    | some n => do
      let a ← w.opens i n
      let b ← acceptAll (w.accept env fuel) n.children
      let c ← w.closes env i n
      return a ++ b ++ c

/-- `make_html`, bgwiki.py:31-36, the first time it is called -/
def Wiki.html (w : Wiki) (env : Env) : Py (List Tok) := w.accept env (w.doc.nodes.length + 1) 0

/-- Parsing and making the HTML. -/
def format (env : Env) (text : Text) : Py (List Tok) := do
  (← Wiki.start.parse env text).html env

end Bglib.Doc
