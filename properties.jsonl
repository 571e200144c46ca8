{"id": "C01", "title": "Position ID round trip", "statement": "Decoding the GNU Backgammon position ID that encode_position produced for a position gives back exactly that position.", "quantifier": "every pair of 25-entry rows of chequer counts (any natural numbers, no cap at 15)", "why_tests_cant": "there are about 1.8e19 legal positions and unboundedly many count vectors; tests fix a handful", "anchors": ["bglib/encoding/gnubgid.py:encode_position", "bglib/encoding/gnubgid.py:decode_position", "bglib/encoding/gnubgid.py:seq2bytes", "bglib/encoding/gnubgid.py:byts2seq"]}
{"id": "C02", "title": "Position IDs are distinct and have the standard 14-character shape", "statement": "Different positions get different IDs, and every legal position (at most 15 chequers a side) gets a 14-character ID as GNU Backgammon defines it.", "quantifier": "all pairs of positions", "why_tests_cant": "injectivity is a statement about pairs of positions; the length depends on the total number of chequers modulo 8", "anchors": ["bglib/encoding/gnubgid.py:encode_position", "bglib/encoding/gnubgid.py:seq2bytes"]}
{"id": "C03", "title": "Position ID decoding never yields a malformed position", "statement": "For every text, decode_position either returns two rows of 25 naturals or raises the documented DecodeError/TypeError; a returned position re-encodes to an ID that decodes to the same position.", "quantifier": "every input text", "why_tests_cant": "inputs are arbitrary text; the padding loop's termination depends on the length modulo 4", "anchors": ["bglib/encoding/gnubgid.py:decode_position", "bglib/encoding/gnubgid.py:byts2seq"]}
{"id": "C04", "title": "Match ID round trip", "statement": "decode_match(encode_match(m)) gives back every field of m.", "quantifier": "every match state whose fields fit their bit widths (cube log < 16, length and scores < 2^15, dice 0..7, ...)", "why_tests_cant": "2^66 match states", "anchors": ["bglib/encoding/gnubgid.py:MatchProxy", "bglib/encoding/gnubgid.py:encode_match", "bglib/encoding/gnubgid.py:decode_match"]}
{"id": "C05", "title": "Match ID fields are independent and the ID is always 12 characters", "statement": "Setting one match field and then reading any other field gives its former value; the encoded ID always has 12 characters; conversely every 9-byte ID is decoded to the fields at the documented bit offsets.", "quantifier": "every match state, every field, every order of assignment", "why_tests_cant": "aliasing of bit ranges shows only for particular value combinations", "anchors": ["bglib/encoding/gnubgid.py:MatchProxy"]}
{"id": "C06", "title": "Board survives encode/decode through gnubg IDs", "statement": "Encoding a board to (position ID, match ID) and decoding into a fresh editor restores position, cube, dice, score, turn, crawford, resignation and doubled flag, whoever is on action.", "quantifier": "every board whose fields fit the ID format", "why_tests_cant": "the side-swap logic depends on whose turn it is and on all 50 counts; a money game with a nonzero score takes a different path", "anchors": ["bglib/encoding/gnubgid.py:encode", "bglib/encoding/gnubgid.py:decode"]}
{"id": "C07", "title": "XGID decoding is faithful", "statement": "For every board there is an XGID text (as eXtreme Gammon writes it) and decode of that text restores position, cube, owner, turn, dice, score, crawford and match length.", "quantifier": "every board expressible as XGID (at most 15 chequers per point, no point held by both)", "why_tests_cant": "26 letters and 9 numeric fields give an astronomically large domain", "anchors": ["bglib/encoding/xgid.py:decode", "bglib/encoding/xgid.py:decode_position"]}
{"id": "C08", "title": "Malformed XGID is rejected with DecodeError", "statement": "Any text that is not a well-formed XGID makes decode raise DecodeError, and nothing else.", "quantifier": "every malformed text", "why_tests_cant": "each field fails separately and only some failing inputs reach the defective error path", "anchors": ["bglib/encoding/xgid.py:decode"]}
{"id": "C09", "title": "FIBS board line decoding", "statement": "For every well-formed FIBS board line the decoded position puts each chequer of the signed board array on the point FIBS documents for that colour and direction, for both colours and directions.", "quantifier": "every FIBS board state", "why_tests_cant": "colour, direction and the 26 signed counts interact; the tests use one line", "anchors": ["bglib/encoding/FIBS.py:FIBSBoardState", "bglib/encoding/FIBS.py:decode"]}
{"id": "C10", "title": "Database byte expression round trip", "statement": "decode_position(encode_position(p)) == p for the 26-byte database expression of a position in which no point is held by both sides.", "quantifier": "every position without shared points and with counts at most 127", "why_tests_cant": "domain is all positions; lossy exactly where a point is shared", "anchors": ["bglib/encoding/dbbyte.py:encode_position", "bglib/encoding/dbbyte.py:decode_position"]}
{"id": "C11", "title": "Database distance is a metric", "statement": "distance is zero exactly on equal expressions, symmetric, and satisfies the triangle inequality.", "quantifier": "all triples of database byte expressions", "why_tests_cant": "a law over triples", "anchors": ["bglib/encoding/dbbyte.py:distance"]}
{"id": "C12", "title": "Chequers are conserved", "statement": "Playing a partial move never creates or destroys a chequer: a non-bearoff move keeps the mover's total, a bearoff lowers it by one, a hit moves exactly one opposing chequer from the landing point to the bar, nobody else's counts change. Hence over any play sequence counts stay non-negative and totals never grow.", "quantifier": "every board, every legal partial move, every sequence of them", "why_tests_cant": "the invariant must survive arbitrarily long histories", "anchors": ["bglib/model/boardeditor.py:make_partial_move"]}
{"id": "C13", "title": "Undo restores the board", "statement": "Playing a partial move and then its undo gives back the original board, and a whole play followed by the undos in reverse order gives back the original board.", "quantifier": "every board, every legal partial move, every sequence", "why_tests_cant": "restoring after hits and bear-ins depends on the interplay of several moves", "anchors": ["bglib/model/boardeditor.py:make_partial_move", "bglib/model/move.py:PartialMove"]}
{"id": "C14", "title": "Flipping the board is an involution", "statement": "flip twice restores the board; flip swaps every per-player attribute and keeps the others.", "quantifier": "every board", "why_tests_cant": "all fields at once", "anchors": ["bglib/model/boardeditor.py:flip"]}
{"id": "C15", "title": "Point names and numbers convert without loss", "statement": "position_pton/position_ntop and move_pton/move_ntop are mutually inverse on their domains and raise ValueError exactly outside them.", "quantifier": "every integer, every text, both players", "why_tests_cant": "unbounded integers and strings", "anchors": ["bglib/model/util.py:position_pton", "bglib/model/util.py:position_ntop", "bglib/model/util.py:move_pton", "bglib/model/util.py:move_ntop"]}
{"id": "C16", "title": "A suggested single move is a legal backgammon move", "statement": "Whatever guess_your_single_pm_from_source / _from_dest returns uses an available die, starts on a point holding a chequer of the mover, enters from the bar first, lands on a point not blocked, marks a hit exactly if a blot is there, and bears off only when all chequers are home with the exact or a justified larger die.", "quantifier": "every board, every dice multiset, every source/destination", "why_tests_cant": "legality is a property of all positions, dice and sources", "anchors": ["bglib/model/move.py:MoveFactory.guess_your_single_pm_from_source", "bglib/model/move.py:MoveFactory.guess_your_single_pm_from_dest", "bglib/model/board.py:is_ok_to_bearoff_from"]}
{"id": "C17", "title": "A suggested combined move is a chain of legal moves and leaves the board unchanged", "statement": "guess_your_multiple_pms(src,dest), when it returns a play, returns consecutive legal steps leading from src to dest, each legal on the board left by the previous, using distinct dice; the board is afterwards exactly as before, also when it fails.", "quantifier": "every board, dice, source and destination", "why_tests_cant": "search with backtracking on mutable state; all failure paths must restore", "anchors": ["bglib/model/move.py:MoveFactory.guess_your_multiple_pms"]}
{"id": "C18", "title": "Dice bookkeeping over a turn", "statement": "After any sequence of appended moves and undos accepted by MoveFactory, dice used by the recorded move plus dice still available equal the roll, and the board equals the starting board with the recorded move played.", "quantifier": "every roll, every accepted history of appends and undos", "why_tests_cant": "arbitrary histories", "anchors": ["bglib/model/move.py:MoveFactory.append", "bglib/model/move.py:Move.append", "bglib/model/move.py:AvailableToPlay"]}
{"id": "C19", "title": "Dice may be picked up exactly when the rules say the turn is over", "statement": "is_leagal_to_pickup_dice accepts exactly when no longer play with the roll exists, and asking does not change the board.", "quantifier": "every board and play so far", "why_tests_cant": "requires comparing with all possible plays", "anchors": ["bglib/model/move.py:MoveFactory.is_leagal_to_pickup_dice"]}
{"id": "C20", "title": "Doubling rules treat both players alike", "statement": "A double is legal for a player exactly when it is legal for the opponent on the flipped board, and never legal in a Crawford game, out of turn, or when a double is pending.", "quantifier": "every board", "why_tests_cant": "the two branches are separate code; they differ only at one boundary score", "anchors": ["bglib/model/board.py:is_leagal_to_double"]}
{"id": "C21", "title": "Points are awarded to the right player, once", "statement": "drop gives the doubler the cube value before the double; accepting a resignation gives the accepter resign value times cube; both end the game; no other action changes a score; a finished game awards no more points.", "quantifier": "every board and every action sequence", "why_tests_cant": "histories of actions of any length", "anchors": ["bglib/model/boardeditor.py:drop", "bglib/model/boardeditor.py:accept_resign", "bglib/model/boardeditor.py:double", "bglib/model/boardeditor.py:take"]}
{"id": "C22", "title": "Never may both players act", "statement": "On every board at most one of the two players may roll, move, resign, take/pass or answer a resignation, and rolling and moving are never both legal.", "quantifier": "every board", "why_tests_cant": "covers all states, including odd combinations", "anchors": ["bglib/model/board.py:is_leagal_to_roll", "bglib/model/board.py:is_leagal_to_move", "bglib/model/board.py:is_leagal_to_resign", "bglib/model/board.py:is_to_accept_resign", "bglib/model/board.py:is_cube_take_or_pass"]}
{"id": "C23", "title": "Boards are values", "statement": "A frozen board never changes, whatever is later done to the editor it came from or is copied into; equality holds exactly if all documented attributes are equal.", "quantifier": "every history of edits and copies", "why_tests_cant": "aliasing bugs appear only for particular histories", "anchors": ["bglib/model/board.py:Board", "bglib/model/boardeditor.py:BoardEditor"]}
{"id": "C24", "title": "gnubg one-sided bearoff index is a perfect hash", "statement": "oneside_index maps the positions of at most m chequers on n points one-to-one onto 0..C(n+m,m)-1.", "quantifier": "all n, m and all positions", "why_tests_cant": "all sizes; collisions need pairs of positions", "anchors": ["bglib/encoding/bearoff/gnubgdb.py:oneside_index"]}
{"id": "C25", "title": "nori bearoff index is a perfect hash with an inverse", "statement": "oneside_upto6_t2k numbers all positions with up to 15 chequers on 6 points consecutively from 0, by chequer count; oneside_upto6_k2t is its inverse.", "quantifier": "all 54264 positions and keys", "why_tests_cant": "the enumeration is large and the inverse has a boundary case at 15 chequers", "anchors": ["bglib/encoding/bearoff/nori.py:oneside_upto6_t2k", "bglib/encoding/bearoff/nori.py:oneside_upto6_k2t"]}
{"id": "C26", "title": "The number of backgammon positions", "statement": "Sum over m of BackgammonCombination(m) counts exactly the arrangements of 15 chequers a side over 24 points, bar and home where no point is shared.", "quantifier": "all arrangements", "why_tests_cant": "about 1.85e19 arrangements", "anchors": ["bglib/encoding/bearoff/__init__.py:BackgammonCombination", "bglib/encoding/bearoff/__init__.py:D"]}
{"id": "C27", "title": "Database records are read completely", "statement": "rawread returns exactly the bytes of the record however the operating system splits the reads, and fails rather than return a short record.", "quantifier": "every file content, index and schedule of short reads", "why_tests_cant": "short-read schedules are chosen by the OS", "anchors": ["bglib/encoding/bearoff/__init__.py:DBReader.rawread"]}
{"id": "C28", "title": "Rating formulas are consistent", "statement": "In exact arithmetic, the two players' winning chances add to 1, the favourite's chance is at least 1/2, a longer match favours the stronger player more, and expected rating change is zero for both.", "quantifier": "all real ratings and all match lengths", "why_tests_cant": "real-valued domain", "anchors": ["bglib/stat/rating.py:upset_chance", "bglib/stat/rating.py:winning_chance", "bglib/stat/rating.py:gain_on_win"]}
{"id": "C29", "title": "Tournament handicaps are fair and tournaments end", "statement": "In exact arithmetic, prize and entry-fee handicaps make the expected result equal for all players; every round eliminates exactly floor(n/2) lives, nobody is lost, and a tournament ends with one survivor for every outcome sequence.", "quantifier": "all fields of players, lives, shuffles and results", "why_tests_cant": "random shuffles and outcomes", "anchors": ["bglib/stat/tourney.py:tourney_chance", "bglib/stat/tourney.py:prize_handicap", "bglib/stat/tourney.py:entryfee_handicap", "bglib/stat/tourney.py:Tourney"]}
{"id": "C30", "title": "FIBS message classification follows the session phase", "statement": "Every message is classified, the phase changes only on the documented messages, login and MOTD phases classify independently of history, and in the run phase the answer is always a pattern that matches the message.", "quantifier": "every message sequence", "why_tests_cant": "the classifier reorders its pattern list at every message", "anchors": ["bglib/protocol/fibs.py:CookieMonster", "bglib/protocol/fibs.py:State"]}
{"id": "C31", "title": "Every subscriber gets every message once", "statement": "Each message is delivered exactly once to each subscriber registered when it arrives, in registration order, whatever handlers do.", "quantifier": "every set of subscribers, handlers that register/unregister, every message sequence", "why_tests_cant": "re-entrant mutation during delivery", "anchors": ["bglib/protocol/session.py:Session._dispatch", "bglib/protocol/session.py:Session.register", "bglib/protocol/session.py:Session.unregister"]}
{"id": "C32", "title": "Session operations are mutually exclusive", "statement": "Operations guarded by the same lock never overlap, the lock is released on every path including exceptions, and the subscriber list is only touched under the lock.", "quantifier": "every interleaving of threads", "why_tests_cant": "schedules cannot be enumerated by tests", "anchors": ["bglib/protocol/session.py:synchronized_with", "bglib/protocol/session.py:Session", "bglib/protocol/session.py:Transport"]}
{"id": "C33", "title": "Snowie text validation accepts exactly the format", "statement": "The validator accepts a text exactly when it is a header followed by games whose moves are numbered 1, 2, 3, ...; any other line order is rejected at the first wrong line.", "quantifier": "every sequence of lines", "why_tests_cant": "unbounded line sequences", "anchors": ["bglib/record/snowietxt.py:Validator", "bglib/record/snowietxt.py:LineValidator", "bglib/record/snowietxt.py:statevalidate"]}
{"id": "C34", "title": "Chopping a match loses nothing", "statement": "Chopping a valid match text into games yields each game with the match header, and the games' lines concatenated are the original body.", "quantifier": "every valid match text", "why_tests_cant": "unbounded texts", "anchors": ["bglib/record/snowietxt.py:chop"]}
{"id": "C35", "title": "Document trees stay well formed and HTML tags are balanced", "statement": "After any sequence of editor operations the document is a finite tree and the HTML written from it has balanced tags.", "quantifier": "every sequence of enter/leave/append operations", "why_tests_cant": "arbitrary operation histories", "anchors": ["bglib/doc/doctree.py:Editor", "bglib/doc/doctree.py:HtmlWriter"]}
{"id": "C36", "title": "HTML escaping is safe and lossless", "statement": "Escaped text contains no <, > and & only as part of an entity, and unescaping it gives the original text.", "quantifier": "every text", "why_tests_cant": "unbounded strings", "anchors": ["bglib/doc/html.py:escape"]}
{"id": "C37", "title": "CSS rules match exactly the intended elements", "statement": "A rule matches a path exactly if its last selector matches the last element and the others match ancestors in order.", "quantifier": "every selector list and every path", "why_tests_cant": "greedy matching might miss a match that backtracking would find", "anchors": ["bglib/image/css.py:Rule.is_match", "bglib/image/css.py:Selector.is_match"]}
{"id": "C38", "title": "Attribute lookup inherits from the nearest ancestor", "statement": "Reading an inheritable attribute gives the element's own value, else the nearest ancestor's, else the default; later CSS rules override earlier ones.", "quantifier": "every element tree and rule list", "why_tests_cant": "arbitrary depth", "anchors": ["bglib/image/base.py:BaseElement.__getattr__", "bglib/image/css.py:Rule.apply"]}
{"id": "C39", "title": "The drawn board shows the board", "statement": "The element tree of a board shows every chequer on its point, bar or home exactly once, 15 per side in all, the cube at its owner and the dice or resignation at the right player.", "quantifier": "every board", "why_tests_cant": "all positions and all combinations of turn, cube and resign flags", "anchors": ["bglib/image/base.py:ElementTree.set"]}
{"id": "C40", "title": "Wiki formatting terminates with balanced output for every text", "statement": "Formatting any wiki text gives HTML with balanced tags in which raw text is escaped.", "quantifier": "every text", "why_tests_cant": "arbitrary text, nested and unterminated markup", "anchors": ["bglib/doc/bgwiki.py:Formatter", "bglib/doc/bgwiki.py:LineFormatter"]}
{"id": "C41", "title": "Only the cube's owner may double", "statement": "A double is legal only for the player who owns the cube, or for either while it is in the centre; a take doubles the cube and gives it to the taker.", "quantifier": "every board and every cube history", "why_tests_cant": "needs all combinations of owner, turn and history", "anchors": ["bglib/model/board.py:is_leagal_to_double", "bglib/model/boardeditor.py:take"]}
{"id": "C42", "title": "Every XGID that eXtreme Gammon writes is accepted", "statement": "An XGID is accepted also while a double is pending (dice field D, B or R) and in money games with any Jacoby/beaver flag.", "quantifier": "every XGID text", "why_tests_cant": "the optional codes multiply with all other fields", "anchors": ["bglib/encoding/xgid.py:decode"]}
{"id": "C43", "title": "FIBS board lines decode for either player's turn", "statement": "Decoding a FIBS board line gives cube, owner, turn, dice, score and match length as the line states them, whoever is to play.", "quantifier": "every FIBS board line", "why_tests_cant": "50 numeric fields; the other player's turn takes a different path", "anchors": ["bglib/encoding/FIBS.py:decode"]}
{"id": "C44", "title": "Every legal single move is found", "statement": "If some available die gives a legal movement from the source (to the destination), guess_your_single_pm_from_source (_from_dest) finds one.", "quantifier": "every board, every dice multiset, every source/destination", "why_tests_cant": "completeness is a statement about all legal moves of all positions", "anchors": ["bglib/model/move.py:MoveFactory.guess_your_single_pm_from_source", "bglib/model/move.py:MoveFactory.guess_your_single_pm_from_dest", "bglib/model/board.py:find_src_of_bearoff_with"]}
{"id": "C45", "title": "Making a point uses two different dice", "statement": "guess_your_making_point returns two legal movements to the point with different dice of the roll and leaves the board unchanged.", "quantifier": "every board and point", "why_tests_cant": "whether the same die is used twice depends on the position", "anchors": ["bglib/model/move.py:MoveFactory.guess_your_making_point"]}
{"id": "C46", "title": "A refused move changes nothing", "statement": "When MoveFactory.append raises, the recorded move, the dice and the board are as before.", "quantifier": "every factory state and every movement", "why_tests_cant": "error paths at every state of a turn", "anchors": ["bglib/model/move.py:MoveFactory.append"]}
{"id": "C47", "title": "Every combined move with one chequer is found", "statement": "If one chequer can go from src to dest by legal movements with different dice of the roll, guess_your_multiple_pms finds a way.", "quantifier": "every board, roll, source and destination", "why_tests_cant": "completeness over all plays; the search commits to the larger die first", "anchors": ["bglib/model/move.py:MoveFactory.guess_your_multiple_pms"]}
{"id": "C48", "title": "Suggested take-backs are right and harmless", "statement": "guess_your_multiple_partial_undoes returns inverses of recorded movements leading from src back to dest, and leaves the board unchanged.", "quantifier": "every recorded move, source and destination", "why_tests_cant": "all histories of a turn", "anchors": ["bglib/model/move.py:MoveFactory.guess_your_multiple_partial_undoes"]}
{"id": "C49", "title": "A factory keeps the dice it is given", "statement": "A MoveFactory made for given remaining dice has exactly these dice.", "quantifier": "every multiset of remaining dice", "why_tests_cant": "only the empty multiset behaves differently", "anchors": ["bglib/model/move.py:MoveFactory"]}
{"id": "C50", "title": "Each action hands the decision to the right player and changes nothing else", "statement": "A double or a resignation has to be answered by the opponent, a take or a refusal returns the decision, lifting the dice passes the turn; an accepted action changes only the attributes it is about and a refused one changes nothing.", "quantifier": "every board, every action, every player", "why_tests_cant": "all combinations of turn, pending double and pending resignation", "anchors": ["bglib/model/boardeditor.py:double", "bglib/model/boardeditor.py:take", "bglib/model/boardeditor.py:offer_resign", "bglib/model/boardeditor.py:reject_resign", "bglib/model/boardeditor.py:pickupdice"]}
{"id": "C51", "title": "Two-sided bearoff index", "statement": "gnubg_Hugh_indexing gives every pair of bearoff positions, including completely borne off sides, its own number.", "quantifier": "all pairs of positions of at most 15 chequers", "why_tests_cant": "collisions need pairs of pairs; the value is never inspected by a test", "anchors": ["bglib/encoding/bearoff/gnubgdb.py:gnubg_Hugh_indexing", "bglib/encoding/bearoff/gnubgdb.py:bearoff_param", "bglib/encoding/bearoff/__init__.py:backward"]}
{"id": "C52", "title": "Trice bearoff key is collision free", "statement": "trice.t2k never gives two different pairs of home boards the same key.", "quantifier": "all pairs of pairs of home board positions", "why_tests_cant": "collisions need pairs of positions", "anchors": ["bglib/encoding/bearoff/trice.py:t2k"]}
{"id": "C53", "title": "Every listed FIBS message pattern is in force", "statement": "A message matched by a pattern listed in the class body of RunState is recognised.", "quantifier": "every listed pattern and every message it matches", "why_tests_cant": "patterns are attributes of a class body; later assignments silently replace earlier ones", "anchors": ["bglib/protocol/fibs.py:RunState"]}
{"id": "C54", "title": "Classification of a run-phase message does not depend on earlier messages", "statement": "The cookie of a message in the run phase depends on the message only.", "quantifier": "every message history and every dictionary order", "why_tests_cant": "overlapping patterns; the list of last matches reorders the search after every message", "anchors": ["bglib/protocol/fibs.py:State.make_cookie", "bglib/protocol/fibs.py:State.bring_to_top"]}
{"id": "C55", "title": "An offered double is recognised", "statement": "The line '<name> doubles. Type 'accept' or 'reject'.' is classified as FIBS_AcceptRejectDouble.", "quantifier": "every player name and every message history", "why_tests_cant": "depends on how the pattern is anchored", "anchors": ["bglib/protocol/fibs.py:RunState.FIBS_AcceptRejectDouble"]}
{"id": "C56", "title": "A closed session is silent and reports its end", "statement": "After close no handler is called any more, and the listener sets the event terminated when it ends.", "quantifier": "every sequence of received data and of actions of other threads", "why_tests_cant": "needs closing at every point of the listener, also from inside a handler", "anchors": ["bglib/protocol/session.py:Transport.close", "bglib/protocol/session.py:Session._listener", "bglib/protocol/session.py:Session._dispatch"]}
{"id": "C57", "title": "A session can be opened again after close", "statement": "After close and open messages are delivered again.", "quantifier": "every session, set of handlers and sequence of messages", "why_tests_cant": "flags set by close survive", "anchors": ["bglib/protocol/session.py:Transport.open", "bglib/protocol/session.py:Transport.close", "bglib/protocol/session.py:Session._dispatch"]}
{"id": "C58", "title": "The size limit refuses exactly longer texts", "statement": "A valid text is refused for its size exactly if it is longer than max_size; max_size 0 is no limit.", "quantifier": "every text and limit", "why_tests_cant": "boundary of an accumulated sum over all line splits", "anchors": ["bglib/record/snowietxt.py:Validator.validate"]}
{"id": "C59", "title": "The text of a document is the text given to the editor, in its order", "statement": "The text of the document read in order is the concatenation of the texts given to the editor, and the parent of every node is the node that contains it; the HTML shows that text.", "quantifier": "every sequence of editor operations", "why_tests_cant": "nodes accepted only by an ancestor of the current node are needed, followed by leaving them", "anchors": ["bglib/doc/doctree.py:Editor.append", "bglib/doc/doctree.py:Editor.leave", "bglib/doc/doctree.py:Editor.append_text"]}
{"id": "C60", "title": "Attribute values stay within their quotes", "statement": "An attribute written as key=\"value\" ends at the quotation mark written after the value.", "quantifier": "every key and value", "why_tests_cant": "arbitrary strings from wiki text", "anchors": ["bglib/doc/doctree.py:BgWikiElementNode.open", "bglib/doc/html.py:escape"]}
{"id": "C61", "title": "Every board of a game can be drawn", "statement": "Whatever accepted actions, rolls and moves are made, the element tree of the resulting board is built without an exception.", "quantifier": "every board reachable from a started game", "why_tests_cant": "the flags for double, resignation and turn combine over arbitrarily long games", "anchors": ["bglib/image/base.py:ElementTree.set", "bglib/model/boardeditor.py:BoardEditor"]}
{"id": "C62", "title": "Links lead where the text says", "statement": "Every link made from wiki text has an address the text names (entry, query, match, wiki page, http or https address), a reader of the attribute finds exactly that address, and the address stays within its quotes.", "quantifier": "every wiki text", "why_tests_cant": "arbitrary text; addresses pass two layers of escaping", "anchors": ["bglib/doc/bgwiki.py:LineFormatter", "bglib/doc/doctree.py:BgWikiElementNode.open"]}
{"id": "C63", "title": "A formatter can be used more than once", "statement": "Making HTML twice gives the same HTML, text can be given in pieces at line ends, and after reset the formatter behaves like a new one.", "quantifier": "every wiki text and formatter state", "why_tests_cant": "state carried over between calls", "anchors": ["bglib/doc/bgwiki.py:Formatter", "bglib/doc/bgwiki.py:PreformatFormatter", "bglib/doc/bgwiki.py:BaseFormatter.reset"]}
{"id": "C64", "title": "Style sheets are read as they are written", "statement": "A rule written on a line is read with exactly its selectors and attributes, whatever blanks it contains; lines that are no rules or are marked as left out have no effect; the notation of the module's description is understood.", "quantifier": "every line of a style sheet", "why_tests_cant": "regular expressions with backtracking over arbitrary text", "anchors": ["bglib/image/css.py:CSSParser", "bglib/image/css.py:load"]}
{"id": "C65", "title": "Helpers for FIBS messages give what the message says", "statement": "get_dice, get_name, get_taker_name, get_move, get_score, get_match_scores and get_resign_score return the dice, name, move, score and points the message states.", "quantifier": "every message with every player name and number", "why_tests_cant": "the module has no tests for them; some fail for every input", "anchors": ["bglib/encoding/FIBS.py:get_dice", "bglib/encoding/FIBS.py:get_name", "bglib/encoding/FIBS.py:get_taker_name", "bglib/encoding/FIBS.py:get_move", "bglib/encoding/FIBS.py:get_score", "bglib/encoding/FIBS.py:get_match_scores", "bglib/encoding/FIBS.py:get_resign_score"]}
{"id": "C66", "title": "Dice, cube and chequers are drawn with what they stand for", "statement": "A die is drawn with as many eyes as it shows, all different and within the die; the cube with its power of two; a resignation with its name; a pile with as many chequers as there are, or the largest number that fits and the count; a point as a triangle within its box.", "quantifier": "every value, box, magnification and style attribute", "why_tests_cant": "all sizes and all counts", "anchors": ["bglib/image/base.py:Die", "bglib/image/base.py:Cube", "bglib/image/base.py:Resign", "bglib/image/base.py:Chequer", "bglib/image/base.py:Point"]}
{"id": "C67", "title": "Every board can be drawn with every style that comes with the library", "statement": "Each style sheet in image/resource loads, and every board on which somebody has to act is drawn with it without an exception, at any magnification.", "quantifier": "every shipped style, board and magnification", "why_tests_cant": "the attributes an element needs depend on the style and on what the board shows", "anchors": ["bglib/image/draw.py:Draw", "bglib/image/css.py:load", "bglib/image/base.py:ElementTree.visit"]}
{"id": "C68", "title": "The picture shows the board", "statement": "The picture drawn with a shipped style shows the chequers, scores, length, Crawford game, decision, dice, cube and offers: boards that differ in one of these give different pictures.", "quantifier": "every pair of boards and every shipped style", "why_tests_cant": "a statement about all pairs of boards", "anchors": ["bglib/image/draw.py:Draw", "bglib/image/base.py:ElementTree.set", "bglib/image/resource"]}
{"id": "C69", "title": "A picture of any size can be made, and what is drawn lies in it", "statement": "Every board can be drawn at every positive size with every shipped style, coordinates are scaled by the factor that fills the tighter side, and everything drawn lies within the picture.", "quantifier": "every size, board and shipped style", "why_tests_cant": "whether a size works depends on rounding of floating point numbers; a test tries a few sizes", "anchors": ["bglib/image/base.py:Board.set_mag", "bglib/image/base.py:BaseElement.apply_mag", "bglib/image/draw.py:Draw.draw"]}
{"id": "C70", "title": "A recorded game can be followed", "statement": "A Tracer starts with the board its ID describes, accepts exactly the entries by the player who has to act, and afterwards answers the questions about the step.", "quantifier": "every board, every entry, every sequence of calls", "why_tests_cant": "the module's tests make a Tracer and ask nothing after an entry", "anchors": ["bglib/record/gnubg.py:Tracer.__init__", "bglib/record/gnubg.py:Tracer.set_action", "bglib/record/gnubg.py:Tracer.on_move", "bglib/record/gnubg.py:Tracer.on_pickup_dice"]}
{"id": "C71", "title": "A picture in wiki text has the address the text asks for", "statement": "The macro Position accepts exactly arguments that begin with a GNUBG ID; the address it writes gives a server that ID and the options as they are written, and stays within its quotes.", "quantifier": "every text given as arguments, every order of the dictionary", "why_tests_cant": "a pattern with four optional parts over arbitrary text, two layers of escaping", "anchors": ["bglib/doc/macro.py:_arg_pattern", "bglib/doc/macro.py:_parse_position", "bglib/doc/macro.py:Position"]}
{"id": "C72", "title": "Tests of HTML tell different HTML apart", "statement": "The comparison the tests of the wiki use passes only if elements, attributes and texts are the same but for newlines and blanks around texts.", "quantifier": "every pair of HTML texts", "why_tests_cant": "it is what the tests themselves rely on; a comparison that overlooks something makes them pass", "anchors": ["bglib/doc/html.py:nomalize", "bglib/doc/html.py:tupdict", "bglib/doc/html.py:cmp_tuple", "bglib/doc/html.py:HtmlTestCase.assertHtmlEqual"]}
{"id": "C73", "title": "Lines of a match record are recognised", "statement": "Each line of a record in the text format is recognised for what it is, so that a record as servers write it is accepted and cut into its games, and a line of another form is refused.", "quantifier": "every text as a line; every record of any number of games, turns and players", "why_tests_cant": "five patterns tried in turn on arbitrary text; the tests use a few complete records", "anchors": ["bglib/record/snowietxt.py:LineValidator"]}
{"id": "C74", "title": "Texts are written in their boxes", "statement": "A text is painted in the middle of its box, in the largest size with which it is smaller than the box, and within it; it is left out only if no size fits.", "quantifier": "every text, box, font and library of fonts", "why_tests_cant": "sizes of texts depend on the font; a test looks at a few pictures", "anchors": ["bglib/image/PIL.py:Draw.calc_font_size", "bglib/image/PIL.py:Draw.draw_text"]}
{"id": "C75", "title": "Nothing is painted outside of its box or the picture", "statement": "Every pixel painted for an element lies in the box of the element and in the picture.", "quantifier": "every pixel, board, size, font and image", "why_tests_cant": "a statement about all pixels of all pictures; the library takes corners to be included", "anchors": ["bglib/image/PIL.py:Draw.draw_rect", "bglib/image/PIL.py:Draw.draw_ellipse", "bglib/image/PIL.py:Draw.draw_polygon", "bglib/image/PIL.py:Draw.paste_image", "bglib/image/PIL.py:Draw.draw_text"]}
{"id": "C76", "title": "A device can be used again", "statement": "Whatever was painted before, even if it ended with an exception, the picture of a board is the one a new device makes.", "quantifier": "every sequence of earlier pictures, every board, style and size", "why_tests_cant": "fonts and images are cached under keys; needs all histories", "anchors": ["bglib/image/PIL.py:Draw.load_font", "bglib/image/PIL.py:Draw.load_image", "bglib/image/draw.py:Draw.draw"]}
{"id": "C77", "title": "The references of a document are found", "statement": "extract_references tells which entries, queries, matches and wiki pages a text refers to, and asking for them changes nothing.", "quantifier": "every wiki text", "why_tests_cant": "the tests for it fail; what it changes shows only in the HTML made afterwards", "anchors": ["bglib/doc/bgwiki.py:Formatter.extract_references"]}
{"id": "C78", "title": "The XML of a tree can be read again", "statement": "The text ElementTree.xml gives for a board in a style is XML, and reading it gives the elements, attributes and strings of the tree in their order.", "quantifier": "every board and every style sheet", "why_tests_cant": "values come from style sheets and are written as they are; the tests compare a few files", "anchors": ["bglib/image/base.py:BaseElement.format", "bglib/image/base.py:ElementTree.xml", "bglib/image/base.py:BaseAttribute.__str__"]}
{"id": "C79", "title": "The XML of a tree obeys its declarations", "statement": "Every element in the tree of a board, in any style, is declared with its attributes and contains only what its declaration allows: by what make_dtd writes, and by the file backgammon.dtd.", "quantifier": "every board and every style sheet", "why_tests_cant": "nothing validates the files; declarations and elements are changed in different places", "anchors": ["bglib/image/base.py:ElementFactory.make_dtd", "bglib/image/base.py:BaseElement.make_DTD_ELEMENT", "bglib/image/base.py:BaseElement.make_DTD_ATTLIST", "bglib/image/backgammon.dtd"]}
{"id": "C80", "title": "A position can be converted from one notation to another", "statement": "A board read from an XGID or a FIBS line and written as a GNUBG ID is the same board when the ID is read.", "quantifier": "every board, every XGID and FIBS line of one", "why_tests_cant": "each notation is tested alone; the board that comes from one must be accepted and kept by the other", "anchors": ["bglib/encoding/xgid.py:decode", "bglib/encoding/gnubgid.py:encode", "bglib/encoding/gnubgid.py:decode", "bglib/encoding/FIBS.py:decode"]}
{"id": "C81", "title": "The text of a move tells its plays", "statement": "Reading the text of a move by the rules of the notation gives the plays of the move, and taking back all plays of a move leaves none.", "quantifier": "every move, every order of taking back", "why_tests_cant": "all lists of plays; the tests show a few moves", "anchors": ["bglib/model/move.py:PartialMove.__str__", "bglib/model/move.py:Move.__str__", "bglib/model/move.py:Move.add", "bglib/model/move.py:AvailableToPlay.__str__"]}
{"id": "C82", "title": "The bearoff database gives the record of the position asked for", "statement": "The record of a position is found under its number, different positions have different records, and the values of the record are returned.", "quantifier": "every database file, every position and every way the file is read", "why_tests_cant": "the file is not there when tests run, and every call of the database ends with an exception", "anchors": ["bglib/encoding/bearoff/__init__.py:DBReader", "bglib/encoding/bearoff/trice.py:DBRreader", "bglib/encoding/bearoff/trice.py:trice_indexing", "bglib/encoding/bearoff/trice.py:t2k", "bglib/encoding/bearoff/nori.py:DBRreader"]}
{"id": "C83", "title": "The tables of an analysis show its numbers", "statement": "Equities and chances in the tables are those of the analysis but for rounding in the last place shown, in their columns, and actions have their names.", "quantifier": "every number, action and row", "why_tests_cant": "rounding of all numbers; the data of the tests are all of the right kind", "anchors": ["bglib/doc/macro.py:signed_one_three", "bglib/doc/macro.py:percent_two_one", "bglib/doc/macro.py:CubeAction_table_row", "bglib/doc/macro.py:Movelisting_row", "bglib/doc/macro.py:CubelessEquity"]}
{"id": "C84", "title": "Tests by chance report the texts that fail", "statement": "The fuzzer makes texts of the asked number of letters, any such text can come up, and it prints a text with the reason exactly if formatting it fails or gives invalid HTML, and that it timed out exactly if it takes too long.", "quantifier": "every text, every answer of random, every outcome of formatting", "why_tests_cant": "it is a test itself; what it overlooks or reports wrongly is not tested", "anchors": ["bglib/doc/fuzzing.py:Gene", "bglib/doc/fuzzing.py:fuzz_it", "bglib/doc/fuzzing.py:verify", "bglib/doc/bgwiki.py:wGene"]}
{"id": "C85", "title": "Recorded sessions are played as they were recorded", "statement": "The test server sends the recorded file, and a scenario gives its lines in their order, one for each step, in automatic steps one for each interval; its window accepts connections.", "quantifier": "every file, every sequence of calls, every way the socket takes data", "why_tests_cant": "depends on what the socket takes and on the clock", "anchors": ["bglib/protocol/server.py:serve_forever", "bglib/protocol/networkplayer.py:Scenario"]}
{"id": "C86", "title": "Boards can be drawn in windows", "statement": "The drawing device for windows draws every board the device for images draws.", "quantifier": "every board, style and size", "why_tests_cant": "needs a window system; the module has no tests", "anchors": ["bglib/image/wx2.py:Draw"]}
{"id": "C87", "title": "The counts of knockout tournaments are those of tournaments that end", "statement": "For every number of players the script plays each tournament to its end; the printed counts add up to the experiments and belong to numbers of rounds that a tournament with three lives can take, and the average is their average.", "quantifier": "every number of players, every shuffle and every sequence of random numbers", "why_tests_cant": "random tournaments; the script has no tests and its output is looked at by nobody but the author", "anchors": ["bglib/stat/3knockout.py", "bglib/stat/tourney.py:Tourney.round"]}
{"id": "C88", "title": "The tests written for the styles check the listed positions", "statement": "The file written for a style has two tests for each listed position, which load it and compare the tree and the picture with the files of its name; with every style these can be made for all listed positions; the tests of the program itself pass.", "quantifier": "every list of positions, every name of a style, every shipped style", "why_tests_cant": "it is a program that writes tests; a position left out or a wrong file would make nothing fail", "anchors": ["bglib/image/testwriter.py:Writer", "bglib/image/testwriter.py:WriterTest", "bglib/image/testwriter.py:tests"]}
{"id": "C89", "title": "Every board of a game can be saved, passed on and drawn", "statement": "Whatever the players do in a game with six-sided dice and legal movements of the chequers, movements taken back included, every board of it, the last one included, keeps at most fifteen chequers a side and no point held by both; its GNU Backgammon IDs are read back as the same board, its XGID as the same position, cube, dice and score; and it can be drawn.", "quantifier": "every first board, every course of a game of any length, every editor the IDs are read into", "why_tests_cant": "the boards reachable in a game are far too many, and the conversions are tested on a handful of positions that were never reached by playing", "anchors": ["bglib/model/boardeditor.py:BoardEditor", "bglib/encoding/gnubgid.py:encode", "bglib/encoding/gnubgid.py:decode", "bglib/encoding/xgid.py:decode", "bglib/image/base.py:set"]}
{"id": "C90", "title": "The board lines of a session are recognised and read", "statement": "After logging in, whatever lines came before, every line of two names and numbers behind 'board:' is recognised as a board, and whatever is recognised as a board is read as the board it describes.", "quantifier": "every sequence of earlier messages, every iteration order of the dictionary of patterns, all names and numbers, lines of any length", "why_tests_cant": "depends on the order of a dictionary and on earlier messages; the decoder is tested with one complete line", "anchors": ["bglib/protocol/fibs.py:RunState", "bglib/protocol/fibs.py:State.make_cookie", "bglib/encoding/FIBS.py:decode", "bglib/encoding/FIBS.py:_FIBSBoardState"]}
{"id": "C91", "title": "A turn played with suggestions is a legal turn, and every legal turn can be played so", "statement": "Whatever the player points at, in whatever order, and whatever is taken back as suggested: the recorded movements are a legal play of the roll leading to the board shown, no suggestion is refused, every board a legal play leads to can be reached, and the dice can be picked up exactly when the turn is over.", "quantifier": "every board, roll and sequence of questions, plays and take-backs", "why_tests_cant": "sequences of questions of any length on any board; the tests ask single questions", "anchors": ["bglib/model/move.py:MoveFactory.guess_your_single_pm_from_source", "bglib/model/move.py:MoveFactory.guess_your_single_pm_from_dest", "bglib/model/move.py:MoveFactory.guess_your_multiple_pms", "bglib/model/move.py:MoveFactory.guess_your_multiple_partial_undoes", "bglib/model/move.py:MoveFactory.append", "bglib/model/move.py:MoveFactory.add"]}
{"id": "C92", "title": "Documents look as they are meant", "statement": "A document of paragraphs with headings, lists of items in lists, quotations, citations, tables, lists of terms and program text, with stretches of other type in their lines, is shown as the HTML of its blocks, one after the other.", "quantifier": "every document of any length and depth with any plain texts", "why_tests_cant": "documents of any size and nesting; the tests format single marks and short examples", "anchors": ["bglib/doc/bgwiki.py:LineFormatter", "bglib/doc/bgwiki.py:Formatter", "bglib/doc/doctree.py:Editor", "bglib/doc/doctree.py:HtmlWriter"]}
{"id": "C93", "title": "The words shown are the words written", "statement": "Without the tags, the page of a paragraph has the words of its text in their order.", "quantifier": "every paragraph of any number of lines and stretches", "why_tests_cant": "arbitrary texts; the tests compare HTML of single words", "anchors": ["bglib/doc/bgwiki.py:LineFormatter", "bglib/doc/bgwiki.py:Formatter", "bglib/doc/doctree.py:HtmlWriter"]}
{"id": "C94", "title": "An item is as deep as it is indented", "statement": "Each item is in as many lists as its line begins with spaces.", "quantifier": "every sequence of indentations", "why_tests_cant": "sequences of any length; the tests have two lists", "anchors": ["bglib/doc/bgwiki.py:LineFormatter._handle_pattern_itemize"]}
{"id": "C95", "title": "Questions about the chequers are answered by the rules", "statement": "Whether a point is open, whether landing on it hits, whether a chequer can be moved from a place, whether and from where one may be borne off with a die, and whether doubles were rolled, is answered as the rules of the game have it.", "quantifier": "every possible board, every place and die", "why_tests_cant": "all boards; the tests ask a few questions on four boards", "anchors": ["bglib/model/board.py:AbstractBoard.is_open_to_land", "bglib/model/board.py:AbstractBoard.has_chequer_to_move", "bglib/model/board.py:AbstractBoard.is_hitting_to_land", "bglib/model/board.py:AbstractBoard.is_ok_to_bearoff_from", "bglib/model/board.py:AbstractBoard.find_src_of_bearoff_with", "bglib/model/board.py:AbstractBoard.is_doubles"]}
{"id": "C96", "title": "No handler is called when a session was closed", "statement": "Once a thread has closed the session and left it, no thread calls a handler any more; a message that arrives then ends the listener.", "quantifier": "every number of threads and every way in which they take turns, all handlers and messages", "why_tests_cant": "depends on how threads take turns; the tests run one thread", "anchors": ["bglib/protocol/session.py:Transport.close", "bglib/protocol/session.py:Session._dispatch", "bglib/protocol/session.py:Session._listener", "bglib/protocol/session.py:synchronized_with"]}
{"id": "C97", "title": "A message is delivered to all, whatever other threads do meanwhile", "statement": "While a message is delivered other threads neither change to whom nor deliver anything themselves; the delivery calls the handlers of the subscribers at its beginning, each once and in order.", "quantifier": "every number of threads and every way in which they take turns, all handlers and subscribers", "why_tests_cant": "depends on how threads take turns; the tests run one thread", "anchors": ["bglib/protocol/session.py:Session._dispatch", "bglib/protocol/session.py:Session.register", "bglib/protocol/session.py:Session.unregister", "bglib/protocol/session.py:synchronized_with"]}
{"id": "C98", "title": "Threads do not change what the methods of a session do", "statement": "Run by a thread that is not interrupted, each method of the session and the listener do what they do in a program without threads, and give back the lock; registering and unregistering do so however threads take turns.", "quantifier": "every session, handlers, place in a program and every way in which threads take turns", "why_tests_cant": "relates programs with locks and exceptions to their effect; the tests run one thread", "anchors": ["bglib/protocol/session.py:Transport.open", "bglib/protocol/session.py:Transport.is_active", "bglib/protocol/session.py:Transport.close", "bglib/protocol/session.py:Transport.send_line", "bglib/protocol/session.py:Session._listener", "bglib/protocol/session.py:Session._dispatch", "bglib/protocol/session.py:Session.register", "bglib/protocol/session.py:Session.unregister"]}
{"id": "C99", "title": "Tables of contents list the headings and link to them", "statement": "The table of contents made by the macro TableOfContent has one entry for each heading, in order, in as many lists as the level of the heading, with the text of the heading; its links lead to the headings.", "quantifier": "every wiki text, with tables of contents and headings anywhere", "why_tests_cant": "the ids of headings are set while the page is being written, so links depend on what stands before what; the tests compare single pages without headings before the table", "anchors": ["bglib/doc/macro.py:TocVisitor.match_nesting", "bglib/doc/macro.py:TocVisitor.de_anchor", "bglib/doc/macro.py:TocVisitor.enter", "bglib/doc/macro.py:TableOfContentNode.open"]}
{"id": "C100", "title": "Tests written from a table ask what the table says", "statement": "The program that turns a table of numbers of bearoff positions into tests reads every row as it is written, writes for each row a test that asks for the number of exactly its pair of positions, and all these tests are run.", "quantifier": "every table of rows, with any numbers of chequers on up to six points of either side", "why_tests_cant": "the tests made are tests themselves; whether a row is lost depends on all pairs of rows, and the names of the tests are made of their numbers", "anchors": ["bglib/encoding/bearoff/t2k.py: writetest, dat, s2t, dat2case, selftest"]}
{"id": "C101", "title": "A game is the same seen from either side of the table", "statement": "Turning the board round and then asking, suggesting, moving, doubling, taking, dropping, resigning or picking up the dice with the players exchanged gives what the same call gives on the board turned round afterwards; the position ID stays the same, and the match ID is that of the turned board.", "quantifier": "every board, every question, every sequence of movements and calls, accepted or refused", "why_tests_cant": "relates all functions on all pairs of boards; most tests have you on the move", "anchors": ["bglib/model/boardeditor.py:BoardEditor", "bglib/model/board.py:AbstractBoard", "bglib/model/move.py:MoveFactory", "bglib/encoding/gnubgid.py:encode"]}
{"id": "C102", "title": "Matches of a tournament are won with the chances of the ratings, and equals have equal prospects", "statement": "A match costs one life of the loser and changes nothing else; the first player wins it for exactly the random numbers up to the chance the ratings give, so with the numbers of random.random() as often as the ratings say, within 2^-53. In a new tournament, exchanging players in the draw exchanges the winner, so everybody has the same prospects.", "quantifier": "every tournament without double entries, every pair of players, every random number, every shuffle", "why_tests_cant": "probabilities cannot be seen in one run; the exchange of players relates all runs to each other", "anchors": ["bglib/stat/tourney.py:Tourney.round", "bglib/stat/tourney.py:Player", "bglib/stat/rating.py:winning_chance"]}
{"id": "C103", "title": "The installation script that is written says what the files say and installs the library", "statement": "make_setup.py writes a script for all files; read as Python reads it, the script calls setup with the version, the description and one requirement for each line of freeze.txt, and with the packages and data files of the library, among them every file a style needs.", "quantifier": "every content of VERSION, DESCRIPTION and freeze.txt that can stand between the marks of the template; every style that comes with the library", "why_tests_cant": "the script is made by text substitution, so that any quotation mark, backslash or brace in a file could change its meaning; a run sees one set of files", "anchors": ["make_setup.py"]}
{"id": "C104", "title": "Every picture can be painted with the files that come with the library", "statement": "With an imaging library that can load the fonts and images that come with the styles, and not those that do not, the picture of every board is painted with every style, whatever was painted before.", "quantifier": "every board somebody has to act on, every style, every size at which the board can be drawn, every earlier use of the device", "why_tests_cant": "whether a file is missed depends on the board: an image for each number of chequers at each place", "anchors": ["bglib/image/PIL.py:Draw", "bglib/image/resource/safari/default.css", "bglib/image/resource/matrix/default.css", "bglib/image/draw.py:Draw.draw"]}
{"id": "C105", "title": "Playing lowers the pip count by the dice", "statement": "Every movement that is played lowers the pip count of the mover by the die, or by less when a chequer is borne off with a larger die, and leaves that of the opponent alone unless a chequer is hit, which then has to go all its way again; what is taken back does not count.", "quantifier": "every possible board, every legal movement, every turn played and taken back with suggestions, every board of a game", "why_tests_cant": "a count over all places of the board; tests look at single boards", "anchors": ["bglib/model/boardeditor.py:BoardEditor.make_partial_move", "bglib/model/move.py:MoveFactory.append", "bglib/model/move.py:MoveFactory.guess_your_single_pm_from_source"]}
{"id": "C106", "title": "A game is over when a player has borne off all chequers", "statement": "When the last chequer of a player is borne off, the game is finished: the other player may not go on to roll or double, and nobody but the winner gets points.", "quantifier": "every game, every board of it", "why_tests_cant": "needs a game that is played to its end and what may be done afterwards", "anchors": ["bglib/model/boardeditor.py:BoardEditor.make_partial_move", "bglib/model/boardeditor.py:BoardEditor.pickup_dice", "bglib/model/board.py:AbstractBoard.is_leagal_to_double", "bglib/model/constants.py:FINISHED"]}
{"id": "C107", "title": "The digest of a record is that of its text, and its lines are accepted only in their order", "statement": "A validator that accepts a record returns the digest of exactly its text, whether the lines are fed or the file is validated; and when the lines of a record are shuffled and still accepted, its contents are in the same order.", "quantifier": "every text, every limit, every order of the lines", "why_tests_cant": "the tests shuffle each record once", "anchors": ["bglib/record/snowietxt.py:Validator", "bglib/record/snowietxt.py:LineValidator", "bglib/record/snowietxt_autogen_test.py:mutated"]}
{"id": "C108", "title": "On formatted pages every element stands where XHTML Strict allows it", "statement": "The page made of a wiki text, put into the document the validator of the tests declares, has every element and every text in an element that may contain it by XHTML 1.0 Strict, and no link in a link.", "quantifier": "every text", "why_tests_cant": "the tests compare a few pages and check them with expat, which looks only at whether the elements are closed", "anchors": ["bglib/doc/bgwiki.py:Formatter.parse", "bglib/doc/doctree.py:Node.append", "bglib/doc/doctree.py:Editor", "bglib/doc/html.py:validate", "bglib/doc/macro.py"]}
{"id": "C109", "title": "Messages of the interface for clients are recognised by their numbers", "statement": "A message of FIBS's interface for clients (numbers 1 to 3 in the login phase, 5 to 19 in the run phase), with any names, numbers and texts in it, gets the cookie belonging to its number.", "quantifier": "every name, number and text, every message history and every dictionary order", "why_tests_cant": "the tests have one transcript; names and texts are chosen by the users of the server", "anchors": ["bglib/protocol/fibs.py:RunState", "bglib/protocol/fibs.py:LoginState", "bglib/protocol/fibs.py:State.make_cookie"]}
{"id": "C110", "title": "Messages described beside the patterns are recognised", "statement": "The messages quoted in the comments of the pattern table, and the sentences about games the patterns are about, are recognised under the name they stand beside, with any names and numbers filled in.", "quantifier": "every name, number and dice, every message history and every dictionary order", "why_tests_cant": "hundreds of patterns are tried in dictionary order; the tests use a transcript without a game", "anchors": ["bglib/protocol/fibs.py:RunState", "bglib/protocol/fibs.py:State.make_cookie", "bglib/protocol/fibs.py:RunState.make_cookie"]}
{"id": "C111", "title": "Every name the code uses exists, whatever was imported before", "statement": "After any imports of modules of the library, in any order and with failures passed over, every module can be imported, and once it is imported every global name with attributes of modules that its functions use is found.", "quantifier": "all sequences of imports of the modules of the library, all modules, all names used by functions", "why_tests_cant": "There are infinitely many orders of imports, the modules bglib.model and bglib.image.base/css import each other, and tests import the modules in one order; a name that is missing is noticed only when its line is run.", "anchors": ["bglib/model/__init__.py:8-23", "bglib/image/css.py:63-66", "bglib/image/base.py:8-13", "bglib/record/gnubg.py:60", "bglib/image/wxpython.py:207"]}
{"id": "C112", "title": "Ratings computed with floating point numbers obey the formulas", "statement": "Computed with binary floating point numbers, the chance of an upset is positive and at most one half, exactly one half for equals, and never grows with the difference of the ratings or the length of the match; with the chance of the favourite it adds up to one, and the two gains add up to the length of the match, up to rounding; it differs from the real formula by less than 10^-14; and it can be computed for all ratings.", "quantifier": "for all ratings (floats or integers), all lengths, all C libraries whose sqrt and pow are right to the last place and keep the order", "why_tests_cant": "The tests compare four numbers; rounding could go wrong, or an order be reversed, for any other of the ratings and lengths.", "anchors": ["bglib/stat/rating.py:13-26"]}
{"id": "C113", "title": "The messages of a session are the lines the server sends, however the network cuts them", "statement": "What the server sends reaches the handlers line by line: every line is one message, without its end, in order, wherever packets begin and end, and the prompt for the login is a message of its own.", "quantifier": "every byte stream, every division into packets, every position of the end of the connection", "why_tests_cant": "The client test reads canned lines from a local server that pauses between them, so packets always end with lines; a line with the word for the prompt in it never occurs.", "anchors": ["bglib/protocol/session.py:94-103", "bglib/protocol/session.py:21", "bglib/protocol/server.py:13-24"]}
{"id": "C114", "title": "Links, macros and special characters in paragraphs show what they stand for, and links lead where they say", "statement": "In a paragraph, links to entries, queries, matches, wiki pages and the web in all their forms, links and marks behind an exclamation mark, macros, stretches in other type, and characters with a meaning in HTML may come in any order between plain text: each is shown as what it stands for, nothing else is affected, and the links of the document are exactly those written, in order, of the right class and with the right address.", "quantifier": "every document of paragraphs with any number of such parts in any order, every time and wiki path", "why_tests_cant": "The tests format one construct at a time, and compare only the text of a few samples; parts next to each other, escaped ones, and unknown macros are rarely tried, and addresses of links hardly ever.", "anchors": ["bglib/doc/bgwiki.py:148-199", "bglib/doc/bgwiki.py:224-233", "bglib/doc/bgwiki.py:414-509", "bglib/doc/macro.py:48-91", "bglib/doc/macro.py:182-222"]}
{"id": "C115", "title": "A tournament leaves the players it is given as they were", "statement": "A tournament made with given entries goes as if it had the players to itself, ends with one of them in, and leaves the entries as they were, so that the same entries can play again.", "quantifier": "all entries, lives, ratings, ways of sharing player objects, shuffles and results", "why_tests_cant": "the players are shared objects; what is left of them shows only after the tournament, and no test looks", "anchors": ["bglib/stat/tourney.py:Tourney", "bglib/stat/tourney.py:Player"]}
{"id": "C116", "title": "Handicaps computed with floating point numbers are fair", "statement": "As computed with floating point numbers, prize and fee handicaps are exactly the given ones for the average player, are in proportion to the computed chances up to rounding, put the stronger player no better off, and the chances are those of the exact formula up to rounding.", "quantifier": "all ratings, lengths, numbers of rounds, prizes and fees, every C library that answers nearly right", "why_tests_cant": "errors of rounding pile up differently for every input; the tests have eight inputs", "anchors": ["bglib/stat/tourney.py:tourney_chance", "bglib/stat/tourney.py:prize_handicap", "bglib/stat/tourney.py:entryfee_handicap"]}
{"id": "C117", "title": "What the handlers of a client are told is what the server said", "statement": "From the bytes of the network to the calls of handlers: every line the server sends leads to exactly one call, with the cookie of that line, of every registered subscriber that has a method for it, in order; the end of the connection is told once, last; neither the packets nor the commands of Telnet between make a difference. A whole session (welcome, prompt, login, message of the day, games) gets the cookies meant for it.", "quantifier": "every text of the server, every division into packets, every set of subscribers and handlers, every order of dictionaries, every whole session", "why_tests_cant": "The test of the client replays one recorded session with pauses between lines, with one subscriber, and compares nothing but that it gets through.", "anchors": ["bglib/protocol/session.py:94-126", "bglib/protocol/fibs.py:17-93", "bglib/protocol/fibs.py:444-475"]}
{"id": "C118", "title": "A recorded session reaches a client line by line", "statement": "A client connected to the program that plays recorded sessions is told every line of the file, with the cookie of that line, as the classifier alone gives it for the file, whatever the packets are.", "quantifier": "every file, every way in which sockets take and give bytes, every set of subscribers and handlers, every order of dictionaries; the file of the tests in particular", "why_tests_cant": "The test of the session asserts only that some line before the login was told, which is so however the text is cut.", "anchors": ["bglib/protocol/server.py:13-31", "bglib/protocol/session.py:94-126", "bglib/protocol/session_test.py:53-69", "bglib/protocol/fibs_test.in"]}
{"id": "C119", "title": "Formatters of other markup convert all their text, and the tests for formatters find what is none", "statement": "The formatters of Markdown and reStructuredText give the converter, each time HTML is asked for, exactly the texts given until then, one after the other, and pass its answer on. The tests every formatter has to pass are passed exactly by objects of a class of formatters with methods parse, make_html and make_pdf, the last two giving texts.", "quantifier": "every sequence of calls, every converter with any state, every object", "why_tests_cant": "the tests give one word once and throw the HTML away; what is wrong with tests shows only with objects nobody has written yet", "anchors": ["bglib/doc/mkdn.py:Formatter", "bglib/doc/rst.py:Formatter", "bglib/doc/viewer_type.py:11-38", "bglib/doc/__init__.py:7-21"]}
{"id": "C120", "title": "Sessions open at the same time do not disturb one another", "statement": "However the threads of several sessions take turns, what belongs to one session changes only by turns of its own threads, never are two threads inside synchronized methods, and a session with a message to deliver is not kept from it by handlers of another session.", "quantifier": "all numbers of sessions and threads, all handlers and schedules", "why_tests_cant": "schedules and handlers cannot be enumerated by tests, and the tests open one session at a time", "anchors": ["bglib/protocol/session.py:Transport", "bglib/protocol/session.py:synchronized_with", "bglib/protocol/session.py:Session"]}
{"id": "C121", "title": "The script writes a page with the title asked for that shows the document", "statement": "For every title and document the script prints one whole page: the title as given, the HTML of the document, and the end; a document that cannot be shown leaves nothing printed; analyses come from the database the script makes.", "quantifier": "all titles, documents, codecs of the input and databases", "why_tests_cant": "there are no tests of the script", "anchors": ["bglib/doc/format_script:header", "bglib/doc/bgwiki.py:Formatter", "bglib/doc/macro.py:setup"]}
{"id": "C122", "title": "Threads with the locks of sessions and subscribers never wait for one another for ever", "statement": "Methods synchronized with one lock exclude each other, and however threads take turns, as long as one has something left to do some thread can go on, for methods of sessions, handlers and methods of subscribers synchronized with the locks the library offers.", "quantifier": "all code of threads and handlers, numbers of subscribers and schedules", "why_tests_cant": "schedules cannot be enumerated by tests; the tests use one thread besides the listener", "anchors": ["bglib/protocol/session.py:Subscriber", "bglib/protocol/session.py:synchronized_with", "bglib/protocol/session.py:Session"]}
{"id": "C123", "title": "The installed library is complete in itself", "statement": "After installation with the packages the installation script names, and any imports of installed modules, every installed module can be imported and every name its functions use is found; a module that is not installed cannot be imported.", "quantifier": "all sequences of imports of the installed modules, all modules, all names used by functions", "why_tests_cant": "The tests run in the source tree, where the packages that are not installed can be imported; whether a module needs one of them shows only after installation, in any of infinitely many orders of imports.", "anchors": ["make_setup.py", "bglib/image/wxpython.py:207"]}
{"id": "C124", "title": "What the file freeze.txt lists is required by the installation script", "statement": "From the script that make_setup.py writes, setuptools reads one requirement for each line of freeze.txt, with the name and the version the line gives; the setup.py that comes with the library is that script for the files that come with it.", "quantifier": "every freeze.txt whose lines name a version, and every one with a line that has a sign not used in requirements; every VERSION and DESCRIPTION that can stand between the marks of the template", "why_tests_cant": "No test writes or runs the installation script; whether it is accepted depends on each line of a file that another program writes.", "anchors": ["make_setup.py:17", "make_setup.py:82", "freeze.txt:11", "setup.py:91", "Makefile:18-19"]}
{"id": "C125", "title": "After make setup.py, setup.py is the script for the files", "statement": "Whatever was done in the directory before - files edited or removed, make setup.py, make clean -, after make setup.py the file setup.py is what make_setup.py writes for VERSION, DESCRIPTION and freeze.txt as they are.", "quantifier": "all histories of edits and calls of make, all contents of the files", "why_tests_cant": "What make does depends on the history of the directory through the times of files; tests do not run make.", "anchors": ["Makefile:12-22", "make_setup.py:13-17"]}
{"id": "C126", "title": "The conversion of images makes a small image from each large one and touches nothing else", "statement": "After convert.py has run, for every file s-cut.jpg of the directory there is s.jpg with the image resized to 25x88 if it is of a bar and to 19x88 otherwise; all other files are as before, whatever the order in which the files are listed, and to run it again changes nothing.", "quantifier": "all directories, all orders of listing, all imaging libraries", "why_tests_cant": "The script has no tests; os.listdir answers in an order of its own, and which names clash depends on the directory.", "anchors": ["bglib/image/resource/convert.py:4-13"]}
