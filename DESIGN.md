# Formal model of bglib — design

The source under study is the Python 2 package `bglib` in `/repo`. It is read as text, never run.
This directory holds a Lean 4 model of its logic (`lean/Verif/**`), theorems about the model, and the
property list they answer (`properties.jsonl`, C01…).

## Method

* **Model** (`Verif/Model/*`): small, total, computable functions mirroring the Python functions branch by
  branch. Python exceptions are values (`Except PyErr α`), mutable editors are state passed through, loops
  are structural recursion or recursion with fuel; running out of fuel is the outcome `diverges`, and the
  theorems say when that cannot happen. Every definition cites `file:lines` and the simplifications made.
* **Specification** (`Verif/Spec/*`): the words used in the statements, independent of the model's helpers.
* **Theorems** (`Verif/Props/*`): one file per subject, with `example`s that meet the hypotheses. Helper
  lemmas are in `Verif/Lemmas/*`.
* **False properties**: when the code violates a property, the negation is proved with a concrete witness
  (`…_false`) and the true remainder is kept with the suffix `_partial`.
* **Mutation testing**: `seeded/LOG.jsonl` records wrong programs tried in a scratch copy of the model and
  which theorems failed.

## Plan per property

| id | what is modelled | proof idea |
|----|------------------|------------|
| C01 | `seq2bytes`, `byts2seq`, base64 text, `encode_position`, `decode_position` | bits are runs of ones closed by zeros; induction over the row and over bytes; base64 decode∘encode by 3-byte groups |
| C02 | as C01 | injectivity from C01; length as function of the chequer total; false at totals 6, 14, 22 (witness) |
| C03 | as C01, on arbitrary text | case analysis of the decoder's result; re-encoding by C01; the padding loop modelled with a divergence outcome |
| C04, C05 | `MatchProxy` bit fields as bit lists of length 72 | read-over-write for disjoint ranges; round trip |
| C06 | `encode`/`decode` on boards | composition of C01 and C04 per turn; false for a money game with score (witness) |
| C07, C08, C42 | `xgid.decode` on field lists | an independent XGID printer, decode∘print = id; error case analysis |
| C09, C43 | `FIBSBoardState` accessors, `position`, `decode` | pointwise statement of the position map; case analysis of the turn |
| C10, C11 | `dbbyte` | pointwise arithmetic, triangle inequality (for the square root) by induction |
| C12, C13 | `make_partial_move`, `make` | list-sum lemmas, induction over plays |
| C14 | `flip` | case analysis |
| C15 | `util` conversions | decimal printing/parsing lemmas, case analysis |
| C16–C19, C44–C49 | `AvailableToPlay`, `Move`, `MoveFactory` | induction over the dice multiset; history induction for C18; witnesses by computation |
| C20–C22, C41, C50 | predicates and actions of board and editor | case analysis, induction over action histories |
| C23 | editors and frozen boards in a heap of objects | history induction (frame) |
| C24–C26, C51, C52 | bearoff indexing and counting | combinadic rank: induction with Pascal's rule; counting by explicit enumeration |
| C27 | `rawread` against an arbitrary short-read schedule | induction over the schedule |
| C28, C29 | rating and tournament formulas over the reals, tournament state machine | real analysis lemmas; induction over rounds |
| C30, C53–C55 | the classifier with its most-recently-used order, and all patterns of `fibs.py` in a checked regular-expression interpreter | history induction; the interpreter is proved equal to a declarative reading |
| C31, C56, C57 | delivery over a live list with handlers that change it; the listener loop | induction over the list and over the stream |
| C32 | threads and the re-entrant lock as interleavings of small programs | invariant over all interleavings |
| C33, C34, C58 | validator automaton and `chop` | refinement to a grammar, induction over lines |
| C35, C36, C59, C60 | document editor, HTML writer, escaping | invariants by induction over operations |
| C37, C38 | style rule matching, attribute lookup | greedy ⇔ subsequence; induction on depth |
| C39, C61 | `ElementTree.set` | the picture read back is the board; every board reachable by actions is drawable |
| C40, C62, C63 | the line patterns of `bgwiki.py` in a backtracking matcher with groups, all handlers and macros, tables of contents, writing | an invariant of the editor state kept by every handler (what is entered can be left, an item's parent is a list, texts are safe); inversion of the patterns for what a match looks like |
| C64 | the patterns of `css.py` in the same matcher, `search` | first match of greedy patterns (`Heads`), induction over the written rule |
| C69 | `set_mag`, `apply_mag`, `draw` with rationals rounded to 53 binary digits | relative error 2^-53 of one rounding; gaps between fractions with small denominators are larger; the kernel evaluates the rounding for all sizes up to 500 |
| C66, C67, C68 | the drawing methods of `base.py`, `draw.py` and the eight style sheets, drawing operations as a list | per kind of element from the attributes it needs; a check over the styled elements of all boards, evaluated by the kernel for each style; reading the list of operations back |
| C70 | `Tracer` as a state machine | induction over the calls; the start by C06 |
| C71 | `_arg_pattern` in the backtracking matcher, `urlencode` | first match (`Heads`); a reader of queries written apart, induction over the pairs |
| C72 | the patterns of `html.py` in the same matcher, the dictionary order as an arbitrary function | first match, induction over tags; a renaming of letters the pattern does not know |
| C73 | the patterns of `LineValidator` in the same matcher | for each pattern: the texts that begin with a match; these exclude each other; then C33, C34, C58 |
| C74, C75, C76 | `PIL.Draw` with the answers of PIL as a record of functions `Library`, the cache as a list, what is painted as a list | the cache holds only what the library answers, so its contents do not matter; induction over the sizes tried; C69 for the boxes |
| C77 | `extract_references` on the formatter of C63 | the HTML depends on nodes and texts of blocks only |
| C78, C79 | `format`, `xml`, `make_dtd` on the trees of C61; a reader of XML and obedience to declarations as specification | every element of a tree made by `set` and a style is allowed by its class, and its values and strings are plain (invariant kept by each step); pieces of the text one by one, then put together by induction over the tree |
| C80 | the models of C06, C07, C43 put together | the board one notation gives is in the domain of the other |
| C81 | texts of moves; a reader of the notation as specification | induction over the plays; each one taken back removes one |
| C82 | records of four singles in a file, readers of C27; a numbering of pairs of one-sided indices | growing squares; C24 for the one-sided index |
| C83 | floats as signed fractions, `%f` as rounding to even | division with remainder; digits by induction |
| C84 | the run of a text and its outcome as a value; the child process as a function to what is printed | cases over outcomes; C40 for the wiki |
| C85 | lines and what the socket takes; a scenario with pulses and a clock | induction over lines and calls |
| C86 | the device of windows with the sizes of C69 | the missing method is needed for every picture |
| C87 | counting the rounds of the tournaments of C29 | a round with a life to spare loses nobody; defeats left bound the rounds |
| C88 | `string.Template`, the templates and the list of positions; a reader of files of tests | lines of a filled template; the listed boards are evaluated |
| C89 | the course of a game: an inductive predicate over the editor calls with legal movements | invariant of the course, then composition with C06, C07, C10, C61 and C69 |
| C90 | board lines as two names and numbers; lines of any length in `Model/FibsShort` | which of the two patterns is tried first, invariant of the list of last matches; composition with C09 and C43 |
| C91 | the states of a factory in a turn: an inductive predicate over suggestions played and taken back | invariant of the states, composition with C13, C16, C17, C19, C89; completeness by induction on the play, exchanging the dice of two bear-offs |
| C92 | documents as trees of blocks with their text and their HTML (`Spec/Document`) | the line patterns match what was written (greedy choice among alternatives); the editor is simulated by a stack of open elements |
| C93 | splitting texts at spaces and line breaks; a page without its tags | from C92 |
| C94 | counting open lists at each item; the depths of open items behind each item | indentations as a tree, then C92; for any indentations, open items and lists behind each line |
| C95 | the rules of `Spec/Rules` | each question unfolded; the loops look for a chequer in a range |
| C96 | worlds of `Model/Threads` with a list of the calls made | every program is made of parts that write no calls or check the request under the lock |
| C97 | the same; a delivery from its beginning to its end | the thread inside holds the lock, so others touch neither list |
| C98 | the functions of `Model/Session` against the programs of `Model/Threads` | rules for sequences, `try` and the lock; the list is frozen for others |
| C99 | `Model/Contents`: links and ids in the order of writing; the table itself is that of C40 | the table is followed list by list as in C92; whatever all steps of the formatter keep holds after parsing (`Lasting`): a first line with the table stays in front, what is known of nodes fits their classes |
| C100 | t2k.py: the table as text, the file written as text; a reader of that file | lines and numbers written are read back; names of six digits and six digits are distinct |
| C101 | the spec exchanges everything that belongs to a player; all of board.py, boardeditor.py, move.py and the IDs | the rows of the mover are the same on both boards, so every loop of the factory runs the same way; calls case by case; histories by induction |
| C102 | tournaments of C29 | what losing does to every entrant; counting evenly spread numbers below a bound; renaming players commutes with every step, up to the order of the entries |
| C103 | `make_setup.py` with `str.format` and `repr`; a reader of Python words as specification | the template as parts, filled one by one; the reader as a machine over characters, run over the closed parts by the kernel and over what is filled in by induction |
| C104 | the device of C74 and a listing of the files of the styles | the pictures written out for C68 name their files; results do not depend on the cache (C76) |
| C105 | pips of a row counted place by place | one movement changes two places of each row; turns by C91 |
| C106 | the course of a game of C89 | the state of the game is kept by everything that happens in it; witness: a race with one chequer left |
| C107 | the class `Validator`; an object of `sha` is the text it was given | in a record of one game each kind of line can only be followed by the next; the kinds of lines are different, so the lines are in their places |
| C108 | which element may be in which, from the definition of XHTML 1.0 Strict; what must be there, and attributes, are left out | along the parsing the way from the current node to the root is followed: on which ways a node of a class is entered decides which class of node takes it as a child; these pairs are compared with the table |
| C109, C110 | forms of messages with blanks for users, numbers, dice and texts; for every form the name | a form is itself an expression; it is tested against every pattern whether some text fits both (none but the name's may) and whether every text fits (one of the name's must); both tests are proved sound |
| C111 | the import system of Python 2 over a table of what each module binds and uses, written from the sources by `validate/imports.py` | the modules a module needs form a region whose states are few; importing does the same in every state as in the state of the region it looks like, and importing other modules leads from one of these to another; the states of each region are computed and checked |
| C112 | rating.py with rounding after every operation; sqrt and pow of the C library are parameters with a stated accuracy | rounding is monotone and errs by a part in 2^53; the logistic curve moves by at most three times the relative error of its exponent |
| C113 | `expect` of telnetlib on chunks of `recv(50)`: commands left out by a state machine that lives on between chunks, patterns searched in order in all that was read | what is left to come is an invariant: `expect` gives its beginning; the first match stays the first match when more is read |
| C114 | all the patterns of a line in their order, handlers, macros, the stack of open elements | which pattern comes first at each part: those behind `!` have the same shapes without it; no link begins in plain text before another part; effect of each part on the stack; the links noted beside the document |
| C115 | tournaments with players as objects that entries refer to | simulation: looking at the objects commutes with a match when no object is shared; what every match keeps is kept by the tournament; a measure of defeats that falls however objects are shared |
| C116 | handicaps with rounding after every operation; `x ** n` of the C library as a parameter that may give zero | rounding commutes with powers of two, so the even chances are exact; order of chances through order of rounding; powers of close chances are close |
| C117 | `Model/Telnet`, `Model/Session` and `Model/Cookie` put together: bytes in, calls of handlers out | induction on the rounds of the listener with the answers of C30, C109 and C110 and the messages of C113 |
| C118 | `Model/Replay` feeding `Model/Telnet` and `Model/Session`; the recorded file is that of `Check/Fibs` | C117 for files with the ends of lines of the network; without them cutting at prompts only, by induction on what `expect` gives; the recorded text by computation |
| C119 | `Model/Markup`: the two formatters with their converters as parameters; classes with one base and the assertions of the tests as data | induction over calls; the tests that are left after the class body by computation, then case analysis |
| C120 | `Model/Sessions`: the programs of `Model/Threads` aimed at the fields of one of many sessions, with one lock | the invariant of C32 for aimed programs; a frame for what belongs to the other sessions; an invariant of the stuck world |
| C121 | `Model/FormatScript`: what has been printed when the script ends and with which exception, over `Model/WikiFormatter`; the codec is a parameter | case analysis of the stages, C63 for the HTML, C40 for the database |
| C122 | `Model/Locks`: what threads do with locks, along one run; many re-entrant locks | an invariant that counts how often each thread has taken each lock; induction over the order of the locks |
| C123 | the table of C111, of which the modules of the packages named in `make_setup.py` are kept | an import from a part of a library that needs nothing but itself does what it does in the whole; that the installed part is such is checked, and C111 applies |
| C124 | the program of C103; `shippedScript` is `setup.py` as it is | the strings Python reads from the script (C103) are read by a reader of requirements; a reader that accepts a line has seen only signs of requirements up to a comment |
| C125 | `Model/Make`: the two rules with the times of the files | an invariant of all histories: a script not older than freeze.txt has its requirements |
| C126 | `Model/Shrink`: the loop of convert.py, with the imaging library as a parameter | induction on the listing: no small image is a large one, so each step leaves what later ones read |
| C65 | the helper functions with `findall` | matches of runs of characters |

## Where code and property disagree

Each is proved with a witness; the theorem is in parentheses.

Encoding

* A position with 6, 14 or 22 chequers in play gets a 12-character ID (C02_length_false).
* Decoding a text with 4k+1 base64 characters never ends (C03_false).
* A running money game with points on the score encodes, and its ID is refused (C06_money_false).
* A malformed XGID can raise `TypeError` or `InconsistentData`, and unknown board letters count as
  empty points (C08_false). Some XGIDs that eXtreme Gammon writes are refused (C42_false, C42_codes_refused).
* The database distance is a squared distance, no metric (C11_triangle_false).
* Converting an XGID of a money game with points gives IDs that are refused (C80_false_money); an editor used before keeps
  double and resignation (C80_false_stale).
* A FIBS board line received while it is not your turn raises `NameError` (C43_other_turn_false).

Board and moves

* `is_leagal_to_double` compares with `<=` for one player and `<` for the other (C20_false, C101_false_double) and ignores the
  owner of the cube (C41_false).
* A game does not end when a player has borne off all chequers: nothing sets the state `FINISHED` or changes the score.
  The loser may roll or double, and if the winner drops that double, the loser gets the points (C106_never, C106_false,
  C106_false_points).
* Points can be awarded twice when an action is repeated after the end of a game (C21_once_false).
* A movement from a place to itself appended twice uses up dice twice (C18_false).
* Picking up the dice is allowed too often, never too rarely (C19_refusals), and asking rewinds the board (C19_false,
  C19_board_false, C19_two_chequers_false, C19_rules_false).
* `MoveFactory` misses moves to the ace point and raises `IndexError` near the far end (C44_dest_false,
  C44_dest_raises), uses one die twice to make a point (C45_false), keeps a refused movement in the recorded
  move (C46_false), misses bearing off with two different dice in some positions (C47_false, exactly which: C47_exact), changes the board when it suggests
  taking back (C48_false), and replaces used-up dice by the whole roll (C49_false).

Bearoff

* `k2t` raises `AssertionError` for 15 chequers (C25_inverse_false). `gnubg_Hugh_indexing` returns nothing
  (C51_none, C51_false). Trice keys collide: exactly twenty pairs of positions share theirs (C52_false, C52_exact). `nori_test` expects 8 where the ranking of the
  code gives 10, and asks the same number for two positions (C25_tests_conflict). No reader answers `db[key]`: `key_to_index`
  takes no key (C82_false_getitem); `trice_indexing` is 0 for every position (C82_false_indexing), `trice.t2k` differs from
  the table in `t2k.py` (C82_false_t2k). Tests made from that table lose rows if a point has ten chequers (C100_false_names).

FIBS

* 43 of 251 patterns are replaced by later assignments to the same name (C53_false); the answer depends on
  earlier messages (C54_false), exactly for messages matching both names of one of 29 pairs (C54_where_partial, C54_contested,
  C54_eclipsed); an offered double is not recognised (C55_false).
* `re.match` looks only at the beginning of a message, so patterns that begin in the middle of a sentence never match what they are
  meant for: "PLAYER logs out. The game was saved.", "PLAYER makes the first move.", "PLAYER waves goodbye." and others
  are unknown messages, an opponent's resignation is taken for one in a game that is watched (C110_false, C110_false_games).
  What a user called "bytes" says can be taken for statistics of the server (C109_false).
* `image/wxpython.py` uses `bglib.image.context`, which does not exist, when it is imported. Functions use names
  that are not there: `iter_subset`, `g`, `is_ok` in `doc/fuzzing.py`; `bglib` and `INVALID` in `encoding/FIBS.py`;
  `human_readable_eq` in `encoding/bearoff/nori.py`; `nane` in `image/base.py`; `ImageFont` and `Image` in
  `image/wx2.py`; `f` and `re` in `protocol/networkplayer.py`; `bglib.model.board.board` in `record/gnubg.py`
  (C111_modules_partial, C111_names_partial, C111_false).
* `rating.upset_chance` raises OverflowError when the difference of the ratings times the root of the length is above
  about 618000 (C112_false_overflow); C28 and C102 speak of real numbers, where there is always a chance.
* session.py:100 searches for 'login: ' anywhere in what was read and at all times, not only before the login.  A line of the
  server with these letters in it, such as `** Last login: …` (listed in fibs.py:368), or the words of a user, is cut in two
  behind them unless the end of the line was read by then (C113_exact, C113_long); the second part is dispatched as a message
  of the server, so a user can forge messages to others (C113_false_forged).  A prompt followed by a line in one packet is not
  seen (C113_false_prompt).
* C114: the macro `Position` enters a span and a picture and then leaves a span; the picture is one, so the span stays open and
  takes everything behind it in the paragraph (C114_false_position).  Macros, unlike links and marks, cannot be escaped with an
  exclamation mark, because their pattern has no `!?` (C114_false_escape).
* C115: `Tourney(n, entries)` copies the dictionary of entries but not the players in it.  The lives lost in the tournament are
  lost by the players of the caller (C115_false_unchanged), and a second tournament among the same entries is a different one:
  everybody but the winner of the first is out after one defeat (C115_false_again).
* C116: with more than 1075 rounds (1/2) ** rounds is zero as a float and both handicaps raise ZeroDivisionError
  (C116_false_rounds).  No tournament has so many.
* C117: false where C31 and C113 are: handlers that unregister, register or raise, and lines with "login: " in them.
* C118: `fibs_test.in` has no carriage returns, `server.py` sends it as it is, and the session waits for them: the client gets
  the whole file as two messages (cut at "login: "), both classified as FIBS_PreLogin.  `subscriber_3_test` passes because it
  looks for that cookie only (C118_false).
* C119: `viewer_type.py` defines `has_make_html_test` twice; the first, which asks for `parse`, is lost (C119_false).
* C120: `_lock` is an attribute of the class `Transport` (session.py:38), made once; all sessions of a process share it. While a handler of one session runs, no other session delivers, sends or closes, and a handler that waits for another session waits for ever (C120_false).
* C121: `format_script` writes the title unescaped, encodes it as if it were `unicode` (so a letter that is not ASCII ends the script), prints the beginning before the HTML is made, and does not call `bglib.doc.macro.setup`, so that its database is never asked and every analysis ends it.
* C122: `_dispatch` calls handlers with the lock of the sessions taken, so a subscriber that synchronizes its handlers and a method that calls `send_line` with its own lock takes the two locks in both orders; the threads can wait for each other for ever (C122_false).
* C123: `bglib/image/wxpython.py` is installed and cannot be imported (C123_false); otherwise the installation breaks nothing.
* C124: line 11 of `freeze.txt` is `git+ssh://git@github.com/bgnori/tonic.git`, which setuptools does not accept as a requirement, so that the script made by `make setup.py` is refused (C124_false). The `setup.py` in the repository still has `python-tonic-library==0.0.16.rev`: it was not written from this `freeze.txt` (C124_false_shipped).
* C125: the rule for `setup.py` names neither `VERSION` nor `DESCRIPTION`: after a change of the version `make setup.py` does nothing (C125_false).
* C126: `convert.py` tests for the seven characters `cut.jpg` but cuts off eight: `barcut.jpg` becomes `ba.jpg`, and of `a-cut.jpg` and `a_cut.jpg` one is lost (C126_false_names); with `a-cut-cut.jpg` the result depends on the order of listing (C126_false_order). It also works when it is merely imported, in whatever the current directory is (not a theorem).
* A handler that unregisters its subscriber makes the next one miss the message; an exception in a handler
  ends the listener (C31_false, C97_false_raise). The others still get a message whose handler closed the
  session (C96_false_handler). Closing from a handler never reports the end (C56_false). A session cannot
  be used again after `close` (C57_false).

* The test server loses what `send` does not take at once (C85_false_send); `Scenario` gives all lines at once in automatic
  steps, and none after the interval (C85_false_auto); its trigger is a `NameError` (C85_false_trigger). The
  window of the player compares numbers of files with its socket and accepts no connection (C85_false_window).
  The program around them calls a method timers do not have, and asks names of files for their triggers (C85_false_app).

Records

* The validator does not look at the numbers of the games: games of a record, and lines with the same number in different
  games, can be exchanged (C107_games, C107_false), although the tests take for granted that a shuffled record is refused.
* Empty lines are accepted everywhere, unfinished texts and stray results too (C33_false); such texts are
  chopped wrongly or raise `TypeError` (C34_false, C34_false_results; C34_exact says what comes out for every accepted text). A text exactly as long as the limit is refused (C58_false).
* The pattern for turns has no end and a stray `]`: what stands behind the number is not looked at
  (C73_false_moves). Names with a comma or colon are refused, `Game 1` as a name is taken for a game
  (C73_false_names).
* `Tracer.set_action` does not keep the action, so every later question is an `AssertionError` (C70_false_ask);
  entries without `board` are refused (C70_false_entry).

Documents

* `append` gives a node the wrong parent, so that later text is written earlier (C59_false,
  C40_false_order). Quotation marks in attributes are not escaped (C60_false, C40_false_title).
* Wiki text can raise `TypeError`, `KeyError`, `AttributeError` (C40_false_position, C40_false_sign,
  C40_false_toc, C40_false_analysis); `&` of a bare address is not escaped (C40_false_escape).
* Web addresses are escaped twice (C62_false_amp). Preformatted text is written again by every call, and a
  formatter writes nothing after `reset` (C63_false_again, C63_false_reset).
* The macro `Position` ignores `width=300`, `height=` and `format=` without a message: its pattern has no equals sign there
  (C71_false_equals); a style behind another option is ignored too (C71_false_order).
* The comparison of HTML in the tests does not look at `&`, `<` and `>` outside of tags, so no test can find
  missing escapes: every escaped text passes for the same text with `<` in place of `&` (C72_false_escape,
  C72_false_tags).
* Tables of analyses: `assert actual in CUBEACTION_TYPES` checks the wrong variable, so that action 4 is an `IndexError` and
  action -1 is shown as `Too good to double` (C83_false_action); chances of 0.519 and 0.481 are both shown as 0.5
  (C83_false_chances).
* `extract_references` always returns an empty dictionary (C77_false), and writes the text of every block once more into
  the HTML made later (C77_false_changes). As it writes the page, it also sets the ids of headings (C99).
* The ids of headings are set while the table of contents is written, so that the links to headings in front of it lead nowhere
  until the page is written again (C99_false_after). Entries lack the text of links to the web (C99_false_ext).

* The fuzzer prints `timed out` for every failure (C84_false_timeout), loses the reason when its output is no terminal
  (C84_false_file), ends with a traceback for empty HTML (C84_false_empty), never names a macro (C84_false_macros), and
  cannot look for shorter texts (C84_false_shorter).

Images

* `testwriter.py` lists a position that can be drawn with no style (C88_false_position) and one position twice
  (C88_false_twice); its own test of the header fails, and its comparison of lines overlooks lines missing in the first
  text (C88_false_own).
* Taking back an earlier movement as the factory suggests it may leave movements that are not allowed (another chequer
  moved while one is on the bar), and the dice may then be picked up (C91_false_back).
* `is_ok_to_bearoff_from` allows bearing off from an empty point with a larger die (C95_false_empty), and
  `find_src_of_bearoff_with` never looks at the ace point (C95_false_ace).
* No board of the second game of a money session can be saved once a point was won (C89_false_session).
* Whether board lines are recognised is left to the iteration order of a dictionary: if the pattern of damaged lines
  comes first, every line is taken for a damaged one (C90_false_order). Recognised lines may be too short to be read, and
  one that ends before the direction is read as if the player moved upwards (C90_false_short).
* The device for windows lacks `calc_mag`: no board can be drawn on it (C86_false, C86_false_shipped).
* Attribute values are written into XML as they are: a style sheet with `text : A&B` or a colour in quotes gives a text that
  is not XML (C78_false_amp, C78_false_quote). No board obeys the file `backgammon.dtd`, which lacks `top_frame`,
  `bottom_frame` and `resign` (C79_false_file).
* Sizes of fonts below 8 are not tried, so that a text that would fit is left out (C74_false). An ellipse is one pixel wider
  and higher than its box (C75_false).
* Selectors with values of images or fonts raise `AttributeError`, other values `ValueError`;
  `[flip=False]` matches a flipped element (C37_false). The default of `fill` is never reached; a second rule
  for an image or font raises `AttributeError` (C38_false).
* A resignation after the roll or after a taken double, and a double with dice on the board, are not shown;
  your own double is marked as your decision (C39_false).
* Style sheets: rules behind `#` are applied; quotes as in the description are not understood; two rules on a
  line are merged; empty blocks and unknown selectors raise `AssertionError` (C64_false_*).
* The style sheet of matrix names a font that does not exist, so that no board can be painted with it
  (C104_false_matrix); that of safari names images of eight and more chequers on the bar, which do not exist
  (C104_safari, C104_false_safari).
* Dice other than 1 to 6 cannot be drawn (C67_false_dice), nor can position `v` of the library's own drawing tests
  (C67_false_test). With the style safari scores and lengths above 25 and cubes above 32 are
  not shown, nor whether the player to roll took a double (C68_false_took), with matrix neither cube nor length nor Crawford game; a very small picture with matrix puts all chequers in one place; a cube at 64 in the middle looks unturned
  (C68_false_*).
* `Board.set_mag` asserts `width * (bound / width) <= bound` with floating point numbers.  The product is often
  rounded above the bound: with the plain styles every picture 3, 6, 12, 24, 48, 49, 59, ..., 192-197, 235-239, 384-394,
  469-479 ... wide (when the width is the tighter side) is an AssertionError, e.g. 390 x 390 (C69_false, C69_blunt).
  Where the assertion holds the board may still be one pixel narrower than the picture (C69_false_exact).

FIBS messages

* `get_taker_name` never finds a name; `get_move` and `get_score` fail for every message (C65_false_*).

Wiki text

* Pages are not always of the type of document that the validator of the tests declares (C108_false, C108_strays): the line
  after a table, a list of terms or a nested citation is in the table, the list or the citation; an item that is indented by more than one
  step gets lists in lists without an item between; a deeper citation is in the paragraph of the one around; a row of a table in an
  item is not in a table; a term whose line closes a stretch opened in an earlier line has its explanation outside the list. Tables of contents
  have lists in lists too (C108_false_contents). Nothing else is misplaced (C108_where_partial).
* Lines of a paragraph are joined without a space, and a word with a change of type in it falls apart
  (C93_false_lines, C93_false_stretch). A quoted line that begins with `a ` is an item (C92_false_quoted). An item
  between two depths is put into the outer list (C94_false_step); the next item, if indented
  alike, goes inside it (C94_false_alike).

Wiki text (found by the authors' own tests)

* A preformatted block is put after the paragraph, which is left empty (`<div></div><pre>...</pre>`); the tests expect it
  inside (`Check/Results: wiki_tests`).

Installation

* `make_setup.py` leaves out the packages `bglib.encoding.bearoff`, `bglib.record` and `bglib.stat`
  (C103_false_packages). A description that ends with `"` makes a script Python refuses, one with backslashes is changed
  (C103_false_description). The styles matrix and safari name `DejaVuLGCSans-Bold.ttf`, which is neither installed
  (C103_false_fonts) nor in their directories. The `setup.py` that is checked in is older than `freeze.txt`.


## Trusted base

* The Lean 4.33.0 kernel. No axioms of our own, no `sorry`, no `native_decide`, no `bv_decide`.
* That the model reads the Python correctly (by citation only, the code is not run). Evidence from results the authors
  recorded: the model makes all 120 trees of `image/resource/*/test/*.xml` exactly (checked by the kernel,
  `Verif/Check/Trees`), and what it draws agrees with all 120 recorded pictures in every pixel that does not belong to
  text or lies next to the border of a round or triangular shape (57 897 690 pixels, none different;
  `validate/compare_pictures.py`). The 258 records in `record/snowietxt` are accepted, their 30 970 lines being of the
  kinds the pattern of the code gives (`validate/records.lean.txt`); the parts `chop` gives raise nothing. Two of the
  records, as the authors' tests use them, and the session of `fibs_test.in`/`fibs_test.out` are run by the kernel
  (`Verif/Check/Records`, `Verif/Check/Fibs`). The model follows the game recorded by GNU Backgammon in
  `record/gnubg_test.py` through all 78 turns: every movement is suggested, the dice may be picked up after each turn, and
  the next record shows the board reached (`Verif/Check/GnubgGame`). The authors' unit tests of boards, moves, wiki
  text, macros, HTML comparison, documents and encodings are run in the model by the kernel (`Verif/Check/Results`,
  `Verif/Check/Encoding`, `Verif/Check/Doc`), and so are those of style rules and elements (`Verif/Check/Image`; the longer ones are translated by `validate/*_tests.py`). Nine of the
  eleven texts of `doc/regression_test.py` are formatted without exception (`Verif/Check/Regression`). Those that do not
  pass there fail in the code too: `mf_24`, `mf_26` (C45), five tests of preformatted text and the one that expects the
  day it was written, ten XGIDs of money games (C42), `seq2bytes_test`, which is older than the padding,
  `draw_text_test`, which expects the text of an operation without the colour the code appends, and `decode_1`,
  `decode_2` of `gnubg_test.py`, which call methods that are not there. Assertions inside `try ... except` in
  `base_test.py` cannot fail.
* Python semantics assumed: unbounded ints, negative list indices wrap, `IndexError` outside, list/tuple
  value equality, `assert` enabled, us-ascii text (`\w`, `\d`, `\s` of `re` likewise), arbitrary order of
  class dictionaries.
* External code, assumed by contract: `tonic` (bit arrays, binomial coefficients, the hash pair of
  combinations, `LineParser`), `base64`/`binascii` as in CPython 2.7, `re` (own interpreters, see
  `Model/Regex` and `Model/Pattern`), `telnetlib` (`expect` is modelled in `Model/Telnet`, errors of sockets are inputs), `decorator`, PIL (its answers are inputs, see
  `Library` in `Model/Device`; both corners of its rectangles and ellipses are painted), docutils, markdown.
* Floats are real numbers in `Model/Stat` (rounded as in binary64 in `Model/RatingFloat`); floats in style rules are kept as they are written.
* `Board.cube` is a natural number. Objects given to the code by its callers are distinct where the code
  compares by identity (players of a tournament, movements of a move). No asynchronous exceptions between
  `lock.acquire()` and `try`. The condition variables of `Subscriber` and the unlocked write in
  `Transport.open` are not modelled.

### Modelled

| Python | Lean |
|--------|------|
| `model/constants.py`, `model/board.py`, `model/util.py` | `Model/Board`, `Model/Util`, `Model/Heap` |
| `model/boardeditor.py`, `model/move.py` | `Model/Editor`, `Model/MoveFactory`, `Model/MoveText` |
| `encoding/gnubgid.py`, `xgid.py`, `dbbyte.py`, `FIBS.py` | `Model/GnubgId`, `Model/Base64`, `Model/Xgid`, `Model/DbByte`, `Model/Fibs`, `Model/FibsText` |
| `encoding/bearoff/*` | `Model/Bearoff`, `Model/BearoffDb` |
| `stat/rating.py`, `stat/tourney.py`, `stat/3knockout.py` | `Model/Stat`, `Model/Contest`, `Model/RatingFloat`, `Model/HandicapFloat`, `Model/Knockout` |
| `protocol/fibs.py`, `protocol/session.py`, `protocol/server.py`, `Scenario`, `poller` and `MyApp` of `protocol/networkplayer.py` | `Model/Cookie`, `Model/CookieTable`, `Model/Session`, `Model/Telnet`, `Model/Threads`, `Model/Sessions`, `Model/Locks`, `Model/Replay` |
| `record/snowietxt.py`, `record/gnubg.py` | `Model/Snowie`, `Model/SnowieLine`, `Model/SnowieDigest`, `Model/Tracer` |
| `doc/doctree.py`, `doc/html.py`, `doc/bgwiki.py`, `doc/macro.py`, `doc/fuzzing.py`, `doc/mkdn.py`, `doc/rst.py`, `doc/viewer_type.py`, `doc/format_script` | `Model/FormatScript`, `Model/Doctree`, `Model/Pattern`, `Model/Wiki`, `Model/WikiFormatter`, `Model/Address`, `Model/HtmlCompare`, `Model/References`, `Model/AnalysisTable`, `Model/Fuzzing`, `Model/Markup` |
| `image/base.py`, `image/backgammon.dtd`, `image/css.py`, `image/draw.py`, `image/PIL.py`, `image/wx2.py`, `image/testwriter.py` | `Model/Image`, `Model/Css`, `Model/Draw`, `Model/Mag`, `Model/Device`, `Model/WxDevice`, `Model/Xml`, `Model/TestWriter` |
| `image/resource/*/default.css` | `Model/Theme/*` |
| `image/resource/convert.py` | `Model/Shrink` |
| `make_setup.py`, `setup.py`, `freeze.txt`, `VERSION`, `DESCRIPTION`, the rules for files of `Makefile` | `Model/Setup`, `Model/Make` |
| all modules, as far as imports and global names go | `Model/Import`, `Model/ImportTable` |

### Not modelled

`*_test.py` files; `image/wxpython.py` (user interface; it imports `bglib.image.context`, which does not
exist); the windows of `protocol/networkplayer.py`; logging and printing.

### Axioms used by each theorem

* none (21): C111_packages, C119_mkdn, C119_rst, C11_triangle_false, C122_false, C126_false_order, C20_false, C36_safe, C41_false, C41_owner_ignored, C49_false, C60_false, C65_false_move, C74_false, C82_false_getitem, C82_false_indexing, C83_false_chances, C83_false_small, C84_false_shorter, C85_false_trigger, C85_idle
* `propext` (78): C08_false, C101_questions, C103_false_fonts, C103_false_packages, C103_styles_partial, C107_feed, C107_once, C113_commands, C113_false_packets, C113_false_prompt, C119_false, C119_shipped, C119_tests, C122_forever, C126_clash_partial, C126_false_names, C126_untouched, C15_move_aliases, C15_words, C19_board_false, C21_once_false, C23_edit, C23_freeze, C23_freeze_extra, C23_frozen, C23_immutable, C23_independent, C32_waits, C33_false, C34_false, C34_false_results, C34_lossless, C36_injective, C36_lossless, C36_no_brackets, C37_false, C38_base, C38_false, C38_own, C41_action_keeps_cube, C41_game_partial, C41_take_keeps_cube, C42_false, C44_dest_raises, C46_board_partial, C46_false, C50_double_refused, C51_empty, C51_false, C51_none, C58_false, C64_false_empty, C64_false_equals, C64_false_quoted, C64_false_selector, C64_false_two, C66_label, C70_false, C70_false_ask, C72_false_tags, C73_false_names, C77_false, C79_attrs, C79_once, C80_false_stale, C81_false_die, C82_authors, C83_cube_row, C83_move_row, C84_false_file, C84_false_macros, C84_text, C88_false_own, C88_false_twice, C88_listed, C91_false_back, C95_dice, C98_open
* `Quot.sound`, `propext` (190): C02_length_false, C03_accepts, C05_independent, C05_length, C07_decode, C09_position, C100_checked, C100_known, C100_read, C100_refused, C100_spaced, C101_false_double, C101_flip, C101_suggestions, C101_turn, C103_false_description, C103_files, C103_script_partial, C103_written, C106_false, C106_false_points, C107_digest, C108_false, C108_false_contents, C108_strays, C10_shared_lost, C111_lost, C111_nearest, C111_places, C113_lines_partial, C113_lossless, C113_sent, C113_total, C113_waiting, C114_false_escape, C114_false_position, C118_joined, C119_tests_partial, C120_alone, C120_between, C120_false, C120_own, C121_false_half, C122_bound, C123_missing, C123_places, C123_states, C124_false, C124_false_shipped, C124_pinned_partial, C124_refused, C125_false, C125_false_clone, C126_made_partial, C14_flip, C14_flip_flip, C15_nobody, C18_false, C20_symmetric_partial, C23_copy, C23_thaw_freeze, C26_allC, C27_negative, C30_reads, C31_adding_partial, C31_at_most, C31_behind_partial, C31_quiet_partial, C33_exact, C33_first, C33_validate, C34_exact, C34_raised, C40_false_analysis, C40_false_escape, C40_false_order, C40_false_position, C40_false_sign, C40_false_title, C40_false_toc, C43_other_turn_false, C43_your_turn_partial, C44_dest_false, C45_board_false, C45_false, C48_always, C48_false, C48_partial, C49_exact, C49_partial, C51_backward_partial, C56_silent, C57_false, C57_partial, C59_false, C60_exact, C60_partial, C62_address_partial, C62_false_amp, C62_links, C62_quotes, C63_again_partial, C63_false_again, C63_false_reset, C63_first, C63_pieces, C64_false_comment, C64_read, C64_sheet, C64_total, C65_dice, C65_dice_iff, C65_false_taker, C65_match, C65_name, C65_resign, C66_chequers, C66_chips, C66_resign, C67_false_dice, C67_false_test, C68_false_matrix, C68_false_safari, C68_false_small, C68_false_took, C70_accepts, C70_colon, C70_false_entry, C72_false, C72_false_escape, C72_reads, C72_sound_partial, C76_operations, C77_false_changes, C77_same_partial, C78_false_amp, C78_false_quote, C78_inj, C78_prolog, C78_read_partial, C78_shipped, C78_values, C79_false_file, C79_read_partial, C79_valid, C81_dance, C81_false_outside, C81_inj, C81_read, C81_shown, C82_false_t2k, C82_order, C83_false_action, C83_order, C84_false_empty, C84_false_timeout, C84_reason_partial, C84_silent, C85_active_partial, C85_false_auto, C85_false_send, C85_false_window, C85_served_partial, C85_single, C88_class, C88_false_position, C88_written, C90_false_rest, C90_false_short, C90_length, C92_false_quoted, C94_false_step, C95_false_ace, C95_false_empty, C96_false_handler, C96_refused, C97_begins, C97_false_raise, C98_close, C98_dispatch, C98_inactive, C98_isActive, C98_raised, C98_received, C98_register, C98_sendLine, C98_unregister, C99_false_after, C99_false_bold, C99_false_ext
* `Classical.choice`, `Quot.sound`, `propext` (359): C01_roundtrip, C02_distinct, C02_length_partial, C02_standard, C03_false, C03_junk, C03_outcome_partial, C03_reencode, C04_bits, C04_roundtrip, C05_assigned, C05_offsets, C06_money_false, C06_roundtrip_partial, C08_outcome_partial, C100_authors, C100_false_names, C100_run_partial, C100_written, C101_action_partial, C101_history_partial, C101_ids, C102_alike, C102_back, C102_beats, C102_match, C102_often, C104_false_matrix, C104_false_safari, C104_plain_partial, C104_safari, C105_bounds, C105_length, C105_step, C105_turn, C106_ends_partial, C106_never, C106_none, C107_false, C107_games, C107_order_partial, C108_documents, C108_where_partial, C109_false, C109_login, C109_partial, C10_board, C10_roundtrip, C110_comments_partial, C110_false, C110_false_games, C110_games, C111_ends, C111_false, C111_modules_partial, C111_names_partial, C112_chances, C112_computed, C112_false_overflow, C112_gains, C112_lib, C112_near, C112_order, C112_refused, C113_exact, C113_false, C113_false_forged, C113_long, C113_prompt_partial, C114_links, C114_shown_partial, C115_apart, C115_ends, C115_entries, C115_false_again, C115_false_unchanged, C115_left, C116_average, C116_computed, C116_fair, C116_false_rounds, C116_handicap, C116_lib, C116_near, C116_order, C117_closed_partial, C117_open_partial, C117_packets_partial, C117_session, C118_false, C118_served_partial, C11_triangle_partial, C11_zero_symm_partial, C120_stalled, C121_false_analysis, C121_false_ascii, C121_false_title, C121_page_partial, C121_printed, C122_exclusive, C122_finish_partial, C122_library, C122_progress_partial, C122_stuck, C123_false, C123_modules_partial, C123_names_partial, C125_partial, C125_requirements, C126_again_partial, C126_order_partial, C12_play, C12_step, C13_undo, C13_undo_play, C15_move_errors, C15_move_roundtrip, C15_position_errors, C15_position_roundtrip, C15_position_roundtrip_text, C16_dest, C16_source, C16_source_max, C17_board, C17_play, C17_total, C18_partial, C18_plain_partial, C19_answers, C19_bar, C19_bar_always_yes, C19_false, C19_one_die, C19_partial, C19_refusals, C19_rules_false, C19_rules_partial, C19_two_chequers_false, C20_exact, C20_never, C21_action, C21_award_ends_game, C21_history, C21_once_partial, C21_strangers, C22_exclusive, C22_one_actor, C23_eq, C23_never_frozen, C24_injective, C24_range, C24_surjective, C24_tail, C25_fifteen, C25_injective, C25_inverse_false, C25_inverse_partial, C25_limit, C25_range, C25_surjective, C25_tests_conflict, C26_WTN, C26_count, C27_read, C28_chance, C28_chances, C28_gain, C28_length, C28_rating, C29_chance, C29_ends, C29_fee, C29_new, C29_prize, C29_round, C30_answer, C30_begin, C30_goodbye, C30_login, C30_motd, C30_named, C30_phase, C31_false, C31_one_shot, C31_stream_partial, C31_unregister, C32_exclusive, C32_frozen, C32_guarded, C32_inside, C32_progress, C32_release_owned, C32_released, C33_accepts_partial, C34_partial, C35_accepted, C35_balanced, C35_tree, C35_works, C37_partial, C37_selector, C38_last_partial, C38_set, C39_action_partial, C39_chequers, C39_cube_partial, C39_dice, C39_draws, C39_false, C39_resign_partial, C39_score, C39_total, C40_balanced, C40_errors_partial, C40_safe_partial, C40_toc, C40_total_partial, C42_codes_refused, C42_written_partial, C44_dest_exact, C44_dest_partial, C44_source, C45_always, C45_legal_partial, C46_always, C47_exact, C47_false, C47_partial, C50_action, C50_double, C51_param_partial, C52_exact, C52_false, C52_same_count_partial, C52_where_partial, C53_false, C53_partial, C54_contested, C54_differ, C54_eclipsed, C54_false, C54_never, C54_pairs, C54_sometimes, C54_unique_partial, C54_where_partial, C54_within, C55_false, C55_never, C55_partial, C56_false, C56_reported_partial, C58_partial, C59_partial, C59_shown, C61_drawable, C64_last, C66_cube, C66_die, C66_point, C67_draws, C67_game, C68_false_cube, C68_legible_partial, C68_matrix_legible_partial, C68_matrix_picture_partial, C68_picture_partial, C68_safari_legible_partial, C68_safari_picture_partial, C69_blunt, C69_draws, C69_false, C69_false_exact, C69_fits, C69_multiple, C69_plain, C69_scale, C69_size, C70_start, C71_accepts, C71_address, C71_false, C71_false_equals, C71_false_order, C71_options_partial, C71_read, C73_false_moves, C73_kinds, C73_players, C73_record_partial, C74_inside, C74_size_partial, C75_false, C75_operations, C75_pictures_partial, C76_again, C80_false_money, C80_fibs_partial, C80_xgid_inj, C80_xgid_partial, C80_xgid_position, C81_dice, C81_takeback, C82_dump, C82_human, C82_number, C82_pairs, C83_chance, C83_equity, C83_shown, C84_wiki, C85_false_app, C86_false, C86_false_shipped, C87_average, C87_experiments, C87_line, C87_rounds, C88_drawn_partial, C89_boards, C89_drawn, C89_false_session, C89_kept, C89_pictured, C89_saved_partial, C89_xgid, C90_answers, C90_delivered_partial, C90_false_order, C90_recognised_partial, C91_accepted, C91_complete, C91_course, C91_legal, C91_over_partial, C91_refusals, C92_shown_partial, C93_false_lines, C93_false_stretch, C93_words_partial, C94_bound, C94_depth_partial, C94_exact, C94_false_alike, C95_bearoff_partial, C95_land, C95_move, C95_source_partial, C96_closed, C96_silent_partial, C97_all_partial, C97_meanwhile, C98_registered, C98_unregistered, C99_entries_partial, C99_first, C99_links, C99_order, C99_written
