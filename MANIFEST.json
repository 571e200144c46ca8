{
 "claims": [
  {
   "property": "C01",
   "status": "proved",
   "theorems": [
    "Bglib.C01_roundtrip"
   ],
   "note": ""
  },
  {
   "property": "C02",
   "status": "partial",
   "theorems": [
    "Bglib.C02_distinct",
    "Bglib.C02_length_partial",
    "Bglib.C02_standard",
    "Bglib.C02_length_false"
   ],
   "note": "IDs are distinct, but with 6, 14 or 22 chequers in play the ID has 12 characters instead of 14; C02_length_false is the witness."
  },
  {
   "property": "C03",
   "status": "partial",
   "theorems": [
    "Bglib.C03_outcome_partial",
    "Bglib.C03_reencode",
    "Bglib.C03_accepts",
    "Bglib.C03_junk",
    "Bglib.C03_false"
   ],
   "note": "Never malformed, but texts with 4k+1 base64 characters make the padding loop run for ever (C03_false)."
  },
  {
   "property": "C04",
   "status": "proved",
   "theorems": [
    "Bglib.C04_bits",
    "Bglib.C04_roundtrip"
   ],
   "note": ""
  },
  {
   "property": "C05",
   "status": "proved",
   "theorems": [
    "Bglib.C05_independent",
    "Bglib.C05_assigned",
    "Bglib.C05_length",
    "Bglib.C05_offsets"
   ],
   "note": ""
  },
  {
   "property": "C06",
   "status": "partial",
   "theorems": [
    "Bglib.C06_roundtrip_partial",
    "Bglib.C06_money_false"
   ],
   "note": "A running money game with points on the score encodes but its IDs are refused with InconsistentData (C06_money_false)."
  },
  {
   "property": "C07",
   "status": "proved",
   "theorems": [
    "Bglib.C07_decode"
   ],
   "note": ""
  },
  {
   "property": "C08",
   "status": "partial",
   "theorems": [
    "Bglib.C08_outcome_partial",
    "Bglib.C08_false"
   ],
   "note": "Rejection is proved, but the error is not always DecodeError (InconsistentData; TypeError for a non-numeric score) and board letters are not checked (C08_false)."
  },
  {
   "property": "C09",
   "status": "proved",
   "theorems": [
    "Bglib.C09_position"
   ],
   "note": "Position of every line; for the other fields see C43."
  },
  {
   "property": "C10",
   "status": "proved",
   "theorems": [
    "Bglib.C10_roundtrip",
    "Bglib.C10_board",
    "Bglib.C10_shared_lost"
   ],
   "note": ""
  },
  {
   "property": "C11",
   "status": "partial",
   "theorems": [
    "Bglib.C11_zero_symm_partial",
    "Bglib.C11_triangle_partial",
    "Bglib.C11_triangle_false"
   ],
   "note": "The distance is a squared Euclidean distance: the triangle inequality fails (C11_triangle_false) and holds for the square root."
  },
  {
   "property": "C12",
   "status": "proved",
   "theorems": [
    "Bglib.C12_step",
    "Bglib.C12_play"
   ],
   "note": ""
  },
  {
   "property": "C13",
   "status": "proved",
   "theorems": [
    "Bglib.C13_undo",
    "Bglib.C13_undo_play"
   ],
   "note": ""
  },
  {
   "property": "C14",
   "status": "proved",
   "theorems": [
    "Bglib.C14_flip",
    "Bglib.C14_flip_flip"
   ],
   "note": ""
  },
  {
   "property": "C15",
   "status": "proved",
   "theorems": [
    "Bglib.C15_position_roundtrip",
    "Bglib.C15_position_roundtrip_text",
    "Bglib.C15_position_errors",
    "Bglib.C15_move_roundtrip",
    "Bglib.C15_move_errors",
    "Bglib.C15_move_aliases",
    "Bglib.C15_words",
    "Bglib.C15_nobody"
   ],
   "note": ""
  },
  {
   "property": "C16",
   "status": "proved",
   "theorems": [
    "Bglib.C16_source",
    "Bglib.C16_source_max",
    "Bglib.C16_dest"
   ],
   "note": ""
  },
  {
   "property": "C17",
   "status": "proved",
   "theorems": [
    "Bglib.C17_play",
    "Bglib.C17_board",
    "Bglib.C17_total"
   ],
   "note": ""
  },
  {
   "property": "C18",
   "status": "partial",
   "theorems": [
    "Bglib.C18_partial",
    "Bglib.C18_plain_partial",
    "Bglib.C18_false"
   ],
   "note": "Holds for every history without movements from a place to itself; false when such a dance is appended twice (C18_false)."
  },
  {
   "property": "C19",
   "status": "partial",
   "theorems": [
    "Bglib.C19_partial",
    "Bglib.C19_bar_always_yes",
    "Bglib.C19_false",
    "Bglib.C19_board_false",
    "Bglib.C19_two_chequers_false",
    "Bglib.C19_answers",
    "Bglib.C19_bar",
    "Bglib.C19_one_die",
    "Bglib.C19_refusals",
    "Bglib.C19_rules_partial",
    "Bglib.C19_rules_false"
   ],
   "note": "False of the code: with a chequer on the bar pickup is always accepted, asking rewinds the board, and plays with two chequers are overlooked. C19_partial gives the answers that are right by number of movements. C19_answers, C19_bar, C19_one_die: the answer in all other cases. C19_refusals (no further hypotheses): a turn that may end under the rules, including that the higher of two dice must be played, is never refused. C19_rules_partial: the answer is right under the rules if nobody was on the bar and two playable dice can be played with one chequer within the board."
  },
  {
   "property": "C20",
   "status": "partial",
   "theorems": [
    "Bglib.C20_false",
    "Bglib.C20_symmetric_partial",
    "Bglib.C20_never",
    "Bglib.C20_exact"
   ],
   "note": "The symmetry is false of the code at score = match_length - cube (C20_false); it holds elsewhere, and the prohibitions hold."
  },
  {
   "property": "C21",
   "status": "partial",
   "theorems": [
    "Bglib.C21_action",
    "Bglib.C21_history",
    "Bglib.C21_award_ends_game",
    "Bglib.C21_strangers",
    "Bglib.C21_once_false",
    "Bglib.C21_once_partial"
   ],
   "note": "Award amounts and recipients proved for all histories; \"once\" is false of the code (C21_once_false), true for a caller that stops at game end."
  },
  {
   "property": "C22",
   "status": "proved",
   "theorems": [
    "Bglib.C22_one_actor",
    "Bglib.C22_exclusive"
   ],
   "note": ""
  },
  {
   "property": "C23",
   "status": "proved",
   "theorems": [
    "Bglib.C23_frozen",
    "Bglib.C23_independent",
    "Bglib.C23_immutable",
    "Bglib.C23_freeze",
    "Bglib.C23_thaw_freeze",
    "Bglib.C23_freeze_extra",
    "Bglib.C23_edit",
    "Bglib.C23_never_frozen",
    "Bglib.C23_copy",
    "Bglib.C23_eq"
   ],
   "note": ""
  },
  {
   "property": "C24",
   "status": "proved",
   "theorems": [
    "Bglib.C24_range",
    "Bglib.C24_injective",
    "Bglib.C24_surjective",
    "Bglib.C24_tail"
   ],
   "note": "For all numbers of points p >= 1 and chequers c. tonic's C is taken to be the binomial coefficient."
  },
  {
   "property": "C25",
   "status": "partial",
   "theorems": [
    "Bglib.C25_range",
    "Bglib.C25_injective",
    "Bglib.C25_surjective",
    "Bglib.C25_inverse_partial",
    "Bglib.C25_fifteen",
    "Bglib.C25_limit",
    "Bglib.C25_inverse_false",
    "Bglib.C25_tests_conflict"
   ],
   "note": "Numbering proved for every C_Hash meeting the stated contract. The inverse is proved for up to 14 chequers; with 15 chequers k2t always raises AssertionError."
  },
  {
   "property": "C26",
   "status": "proved",
   "theorems": [
    "Bglib.C26_count",
    "Bglib.C26_WTN",
    "Bglib.C26_allC"
   ],
   "note": "Cardinality of the set of positions over 24 points, bar and home."
  },
  {
   "property": "C27",
   "status": "proved",
   "theorems": [
    "Bglib.C27_read",
    "Bglib.C27_negative"
   ],
   "note": "Every schedule of short reads; a read delivers at least one byte unless at end of file."
  },
  {
   "property": "C28",
   "status": "proved",
   "theorems": [
    "Bglib.C28_chances",
    "Bglib.C28_length",
    "Bglib.C28_rating",
    "Bglib.C28_gain",
    "Bglib.C28_chance"
   ],
   "note": "Over real numbers; float rounding and overflow are not modelled."
  },
  {
   "property": "C29",
   "status": "proved",
   "theorems": [
    "Bglib.C29_chance",
    "Bglib.C29_prize",
    "Bglib.C29_fee",
    "Bglib.C29_round",
    "Bglib.C29_ends",
    "Bglib.C29_new"
   ],
   "note": "Handicaps over real numbers; tournaments for every shuffle and every sequence of random numbers. Player objects of different entries are assumed distinct."
  },
  {
   "property": "C30",
   "status": "proved",
   "theorems": [
    "Bglib.C30_answer",
    "Bglib.C30_named",
    "Bglib.C30_phase",
    "Bglib.C30_login",
    "Bglib.C30_begin",
    "Bglib.C30_motd",
    "Bglib.C30_goodbye",
    "Bglib.C30_reads"
   ],
   "note": "For every iteration order of the class dictionaries. Python's re is modelled for the constructs the tables use; matching is proved equivalent to a declarative reading."
  },
  {
   "property": "C31",
   "status": "partial",
   "theorems": [
    "Bglib.C31_quiet_partial",
    "Bglib.C31_adding_partial",
    "Bglib.C31_stream_partial",
    "Bglib.C31_behind_partial",
    "Bglib.C31_at_most",
    "Bglib.C31_one_shot",
    "Bglib.C31_unregister",
    "Bglib.C31_false"
   ],
   "note": "False when handlers change the subscriptions or raise: a handler unregistering its subscriber makes the next one miss the message; new subscribers get the message being delivered; an exception ends the listener. Proved for handlers that unregister neither their own subscriber nor one before it: exactly those registered at the end are called (C31_behind_partial). Nobody is called too often (C31_at_most); if all handlers unregister their subscribers every second one misses the message (C31_one_shot)."
  },
  {
   "property": "C32",
   "status": "proved",
   "theorems": [
    "Bglib.C32_inside",
    "Bglib.C32_exclusive",
    "Bglib.C32_guarded",
    "Bglib.C32_frozen",
    "Bglib.C32_released",
    "Bglib.C32_release_owned",
    "Bglib.C32_waits",
    "Bglib.C32_progress"
   ],
   "note": "For every interleaving of any number of threads running code that uses the session by its methods only, including handlers. telnetlib's own state is not modelled."
  },
  {
   "property": "C33",
   "status": "partial",
   "theorems": [
    "Bglib.C33_exact",
    "Bglib.C33_first",
    "Bglib.C33_accepts_partial",
    "Bglib.C33_validate",
    "Bglib.C33_false"
   ],
   "note": "Lines come with their kind (C73 gives the kind of every text; LineParser of tonic, which hands them out, is not in the repository). Proved: the exact language accepted, and that it contains the format. False: empty lines are accepted everywhere, so the match length can be missing; unfinished texts and stray result lines are accepted."
  },
  {
   "property": "C34",
   "status": "partial",
   "theorems": [
    "Bglib.C34_partial",
    "Bglib.C34_lossless",
    "Bglib.C34_exact",
    "Bglib.C34_raised",
    "Bglib.C34_false",
    "Bglib.C34_false_results"
   ],
   "note": "The property is proved for every text in the format, and C34_exact says what comes out for every accepted text, C34_raised when there is an exception. The property is false for other accepted texts: TypeError without the match length, a game made of the match length alone, results after an empty line are lost, a result after the match length replaces it, a result after a game header begins a game."
  },
  {
   "property": "C35",
   "status": "proved",
   "theorems": [
    "Bglib.C35_tree",
    "Bglib.C35_accepted",
    "Bglib.C35_balanced",
    "Bglib.C35_works"
   ],
   "note": "Every sequence of operations. A list made without the attributes of its design gives a KeyError instead of HTML; attributes (among them the style of list items) are otherwise not modelled."
  },
  {
   "property": "C36",
   "status": "proved",
   "theorems": [
    "Bglib.C36_lossless",
    "Bglib.C36_safe",
    "Bglib.C36_injective",
    "Bglib.C36_no_brackets"
   ],
   "note": ""
  },
  {
   "property": "C37",
   "status": "partial",
   "theorems": [
    "Bglib.C37_selector",
    "Bglib.C37_partial",
    "Bglib.C37_false"
   ],
   "note": "Proved: greedy matching finds a match exactly if there is one, for selectors whose value can be compared. Comparing an image or font value raises AttributeError, a non-number for an integer attribute ValueError, and [flip=False] matches a flipped element."
  },
  {
   "property": "C38",
   "status": "partial",
   "theorems": [
    "Bglib.C38_base",
    "Bglib.C38_own",
    "Bglib.C38_last_partial",
    "Bglib.C38_set",
    "Bglib.C38_false"
   ],
   "note": "Proved for the attributes all elements share, for own values and for the last rule that sets an attribute when the rules are accepted. False in general: the default of fill is never reached inside a position, and a second rule that sets an image or font raises AttributeError."
  },
  {
   "property": "C39",
   "status": "partial",
   "theorems": [
    "Bglib.C39_draws",
    "Bglib.C39_chequers",
    "Bglib.C39_total",
    "Bglib.C39_cube_partial",
    "Bglib.C39_dice",
    "Bglib.C39_resign_partial",
    "Bglib.C39_score",
    "Bglib.C39_action_partial",
    "Bglib.C39_false"
   ],
   "note": "Chequers, totals, dice, score proved for every board that can be drawn. False for resignations after the roll or after a taken double (not shown), for a double with dice on the board (no cube), and your own double is marked as your decision."
  },
  {
   "property": "C40",
   "status": "partial",
   "theorems": [
    "Bglib.C40_balanced",
    "Bglib.C40_errors_partial",
    "Bglib.C40_total_partial",
    "Bglib.C40_safe_partial",
    "Bglib.C40_toc",
    "Bglib.C40_false_position",
    "Bglib.C40_false_sign",
    "Bglib.C40_false_toc",
    "Bglib.C40_false_analysis",
    "Bglib.C40_false_escape",
    "Bglib.C40_false_order",
    "Bglib.C40_false_title"
   ],
   "note": "Balanced for every text that is formatted, given balanced docutils output. Formatting ends for every text, but fails for Position and Analysis without arguments, Analysis without database, a list item without sign in a list with signs, and a table of contents over a heading with markup. Text is escaped except & in bare web addresses; link titles may contain quotation marks; a preformatted block moves behind the text that follows it."
  },
  {
   "property": "C41",
   "status": "partial",
   "theorems": [
    "Bglib.C41_false",
    "Bglib.C41_take_keeps_cube",
    "Bglib.C41_owner_ignored",
    "Bglib.C41_action_keeps_cube",
    "Bglib.C41_game_partial"
   ],
   "note": "False of the code: is_leagal_to_double ignores the cube owner; witness proved. In games begun with the cube in the centre it stays there for ever, so the first half holds there for all histories."
  },
  {
   "property": "C42",
   "status": "partial",
   "theorems": [
    "Bglib.C42_false",
    "Bglib.C42_codes_refused",
    "Bglib.C42_written_partial"
   ],
   "note": "False of the code: witnesses proved. Among the texts that eXtreme Gammon writes, exactly those with two digits for dice and flag 0 or 1 are accepted (C42_written_partial)."
  },
  {
   "property": "C43",
   "status": "partial",
   "theorems": [
    "Bglib.C43_your_turn_partial",
    "Bglib.C43_other_turn_false"
   ],
   "note": "Proved for your turn; when it is not your turn decode raises NameError (C43_other_turn_false)."
  },
  {
   "property": "C44",
   "status": "partial",
   "theorems": [
    "Bglib.C44_source",
    "Bglib.C44_dest_partial",
    "Bglib.C44_dest_exact",
    "Bglib.C44_dest_false",
    "Bglib.C44_dest_raises"
   ],
   "note": "Complete from a source. From a destination the ace point is never found for a larger die, and IndexError is raised near the far end: exactly with an empty bar, an open point and a die that would come from beyond the bar (C44_dest_exact); elsewhere on the board complete."
  },
  {
   "property": "C45",
   "status": "partial",
   "theorems": [
    "Bglib.C45_legal_partial",
    "Bglib.C45_false",
    "Bglib.C45_board_false",
    "Bglib.C45_always"
   ],
   "note": "False of the code: the first movement stays on the board whenever one is found, and the same die is suggested twice whenever two chequers stand where it begins (C45_always)."
  },
  {
   "property": "C46",
   "status": "partial",
   "theorems": [
    "Bglib.C46_board_partial",
    "Bglib.C46_false",
    "Bglib.C46_always"
   ],
   "note": "False of the code for the recorded move, which every refused movement changes (C46_always); the board is never changed by a refused movement."
  },
  {
   "property": "C47",
   "status": "partial",
   "theorems": [
    "Bglib.C47_partial",
    "Bglib.C47_exact",
    "Bglib.C47_false"
   ],
   "note": "Complete for destinations on the board and for doubles. False for bearing off with two different dice, exactly if the larger die played first leaves a chequer behind that would have to be borne off before (C47_exact)."
  },
  {
   "property": "C48",
   "status": "partial",
   "theorems": [
    "Bglib.C48_partial",
    "Bglib.C48_false",
    "Bglib.C48_always"
   ],
   "note": "The chain is right; asking takes back all of its movements but the last (C48_always)."
  },
  {
   "property": "C49",
   "status": "partial",
   "theorems": [
    "Bglib.C49_partial",
    "Bglib.C49_false",
    "Bglib.C49_exact"
   ],
   "note": "An exhausted set of dice is replaced by the whole roll."
  },
  {
   "property": "C50",
   "status": "proved",
   "theorems": [
    "Bglib.C50_double",
    "Bglib.C50_double_refused",
    "Bglib.C50_action"
   ],
   "note": ""
  },
  {
   "property": "C51",
   "status": "partial",
   "theorems": [
    "Bglib.C51_backward_partial",
    "Bglib.C51_param_partial",
    "Bglib.C51_empty",
    "Bglib.C51_none",
    "Bglib.C51_false"
   ],
   "note": "gnubg_Hugh_indexing has no return statement: no pair of positions gets a number; a side borne off is an IndexError. Proved: the number of points is that of the rearmost chequer of either side, and with it the one-sided index of each side is found (and thrown away)."
  },
  {
   "property": "C52",
   "status": "partial",
   "theorems": [
    "Bglib.C52_same_count_partial",
    "Bglib.C52_where_partial",
    "Bglib.C52_exact",
    "Bglib.C52_false"
   ],
   "note": "False: with the usual numbering twenty pairs of positions share a key, and exactly those (C52_exact). With any numbering that meets the contract positions with the same number of chequers have different keys, and only one and two or two and three chequers can share one."
  },
  {
   "property": "C53",
   "status": "partial",
   "theorems": [
    "Bglib.C53_partial",
    "Bglib.C53_false"
   ],
   "note": "False: later assignments to the same name replace patterns (43 of 251); all settings lines such as 'allowpip YES' are FIBS_Unknown. Proved: patterns not replaced are in force."
  },
  {
   "property": "C54",
   "status": "partial",
   "theorems": [
    "Bglib.C54_unique_partial",
    "Bglib.C54_where_partial",
    "Bglib.C54_pairs",
    "Bglib.C54_contested",
    "Bglib.C54_within",
    "Bglib.C54_eclipsed",
    "Bglib.C54_never",
    "Bglib.C54_sometimes",
    "Bglib.C54_false",
    "Bglib.C54_differ"
   ],
   "note": "False exactly for the messages that match both names of one of 29 pairs: other messages are answered independently of history and dictionary order (C54_where_partial); for 22 of the pairs the answer depends on the message before in every order (C54_contested), for the other 7 one name is an answer never or sometimes depending on the order (C54_never, C54_sometimes) and can always be displaced (C54_eclipsed)."
  },
  {
   "property": "C55",
   "status": "partial",
   "theorems": [
    "Bglib.C55_false",
    "Bglib.C55_never",
    "Bglib.C55_partial"
   ],
   "note": "False: the pattern lacks the name and match() is anchored; an offer is taken for FIBS_Doubles. Proved: the offer is at least never unknown."
  },
  {
   "property": "C56",
   "status": "partial",
   "theorems": [
    "Bglib.C56_silent",
    "Bglib.C56_reported_partial",
    "Bglib.C56_false"
   ],
   "note": "Silent: proved. The event is not set when a handler closes the session, the listener then leaves its loop without reporting."
  },
  {
   "property": "C57",
   "status": "partial",
   "theorems": [
    "Bglib.C57_partial",
    "Bglib.C57_false"
   ],
   "note": "False: _termination_requested is never cleared, the first message after reopening ends the listener."
  },
  {
   "property": "C58",
   "status": "partial",
   "theorems": [
    "Bglib.C58_partial",
    "Bglib.C58_false"
   ],
   "note": "A text exactly as long as the limit is refused."
  },
  {
   "property": "C59",
   "status": "partial",
   "theorems": [
    "Bglib.C59_partial",
    "Bglib.C59_shown",
    "Bglib.C59_false"
   ],
   "note": "False: append gives a node the current node as parent although an ancestor takes it, so leave returns into the wrong node and later text is written earlier. Proved when the current node accepts every new node."
  },
  {
   "property": "C60",
   "status": "partial",
   "theorems": [
    "Bglib.C60_partial",
    "Bglib.C60_false",
    "Bglib.C60_exact"
   ],
   "note": "False: quotation marks are not escaped. Proved: a value stays in its quotes if and only if it has none (C60_exact)."
  },
  {
   "property": "C61",
   "status": "proved",
   "theorems": [
    "Bglib.C61_drawable"
   ],
   "note": "From any board with rows of 25 points on which the player on turn decides."
  },
  {
   "property": "C62",
   "status": "partial",
   "theorems": [
    "Bglib.C62_links",
    "Bglib.C62_address_partial",
    "Bglib.C62_quotes",
    "Bglib.C62_false_amp"
   ],
   "note": "Every link of every text leads to an address the text names and stays in its quotes. False: web addresses are escaped twice, so one with & leads elsewhere; proved for all others."
  },
  {
   "property": "C63",
   "status": "partial",
   "theorems": [
    "Bglib.C63_first",
    "Bglib.C63_pieces",
    "Bglib.C63_again_partial",
    "Bglib.C63_false_again",
    "Bglib.C63_false_reset"
   ],
   "note": "False: preformatted text is written once more each time HTML is made, and after reset nothing is written for any text because the line formatter keeps the old editor. Proved for texts without {{{, and for text in pieces."
  },
  {
   "property": "C64",
   "status": "partial",
   "theorems": [
    "Bglib.C64_read",
    "Bglib.C64_last",
    "Bglib.C64_sheet",
    "Bglib.C64_total",
    "Bglib.C64_false_comment",
    "Bglib.C64_false_quoted",
    "Bglib.C64_false_two",
    "Bglib.C64_false_empty",
    "Bglib.C64_false_selector",
    "Bglib.C64_false_equals"
   ],
   "note": "Proved for every rule written on its line with unquoted values, blanks anywhere. False: a leading # never leaves out a rule (so the rules marked so in the deutsche theme are applied), quoted values are dropped or kept with their quotes, two rules on a line are merged, an empty block or pattern is an AssertionError, a rule whose selectors are not understood fails at every element."
  },
  {
   "property": "C65",
   "status": "partial",
   "theorems": [
    "Bglib.C65_dice",
    "Bglib.C65_dice_iff",
    "Bglib.C65_name",
    "Bglib.C65_match",
    "Bglib.C65_resign",
    "Bglib.C65_false_taker",
    "Bglib.C65_false_move"
   ],
   "note": "False: get_taker_name never finds a name, get_move is a NameError and get_score a TypeError for every message. The others are proved for every message of their form."
  },
  {
   "property": "C66",
   "status": "proved",
   "theorems": [
    "Bglib.C66_die",
    "Bglib.C66_cube",
    "Bglib.C66_resign",
    "Bglib.C66_chips",
    "Bglib.C66_chequers",
    "Bglib.C66_point",
    "Bglib.C66_label"
   ],
   "note": "For elements drawn without images; drawing operations are recorded in order; C74 to C76 say what the device makes of them."
  },
  {
   "property": "C67",
   "status": "proved",
   "theorems": [
    "Bglib.C67_draws",
    "Bglib.C67_game",
    "Bglib.C67_false_dice",
    "Bglib.C67_false_test"
   ],
   "note": "For boards whose dice show 1 to 6, or nothing (needed: C67_false_dice), and on which somebody has to act (needed: C67_false_test). Images and fonts are assumed to be there; magnification is an arbitrary function on integers."
  },
  {
   "property": "C68",
   "status": "partial",
   "theorems": [
    "Bglib.C68_picture_partial",
    "Bglib.C68_legible_partial",
    "Bglib.C68_safari_picture_partial",
    "Bglib.C68_safari_legible_partial",
    "Bglib.C68_matrix_picture_partial",
    "Bglib.C68_matrix_legible_partial",
    "Bglib.C68_false_took",
    "Bglib.C68_false_small",
    "Bglib.C68_false_cube",
    "Bglib.C68_false_safari",
    "Bglib.C68_false_matrix"
   ],
   "note": "Proved for six of the eight styles: the picture is written out operation by operation, and boards with the same picture agree in everything players see. The picture of safari is written out too, and read back as far as there are images for the numbers; the picture of matrix is written out, and the chequers, scores, dice and marked player are read back from it at magnifications from 0.6 on. False for safari (scores and lengths above 25, cubes above 32, whether the player to roll took a double) and matrix (cube, resignation, length and Crawford game are never drawn); a cube at 64 in the middle looks like an unturned one in all."
  },
  {
   "property": "C69",
   "status": "partial",
   "theorems": [
    "Bglib.C69_size",
    "Bglib.C69_draws",
    "Bglib.C69_blunt",
    "Bglib.C69_multiple",
    "Bglib.C69_scale",
    "Bglib.C69_plain",
    "Bglib.C69_fits",
    "Bglib.C69_false",
    "Bglib.C69_false_exact"
   ],
   "note": "False: the last assertions of set_mag compare rounded floats, so many sizes fail, e.g. every size that is 384 to 394 wide and high enough with the plain styles. Proved: exactly which sizes fail, all others draw every board, and all that is drawn with any shipped style lies in the picture. Sizes up to 2^25, binary64 rounding to nearest even."
  },
  {
   "property": "C70",
   "status": "partial",
   "theorems": [
    "Bglib.C70_start",
    "Bglib.C70_colon",
    "Bglib.C70_accepts",
    "Bglib.C70_false_ask",
    "Bglib.C70_false",
    "Bglib.C70_false_entry"
   ],
   "note": "False: set_action checks an entry but does not keep it, so every question is an AssertionError after any calls; entries without a position, as GNU writes for a take, are refused. Proved: the board at the start and which entries are accepted."
  },
  {
   "property": "C71",
   "status": "partial",
   "theorems": [
    "Bglib.C71_accepts",
    "Bglib.C71_read",
    "Bglib.C71_options_partial",
    "Bglib.C71_address",
    "Bglib.C71_false_equals",
    "Bglib.C71_false",
    "Bglib.C71_false_order"
   ],
   "note": "False: format=, width= and height= are left out without a message together with all that follows (the pattern has no equals sign there), and so is a style behind another option. Proved: which arguments are accepted, what is read for every text, and that a server reads exactly that from the address."
  },
  {
   "property": "C72",
   "status": "partial",
   "theorems": [
    "Bglib.C72_reads",
    "Bglib.C72_sound_partial",
    "Bglib.C72_false_escape",
    "Bglib.C72_false",
    "Bglib.C72_false_tags"
   ],
   "note": "False: &, < and > outside of tags are skipped, so HTML with missing escapes passes. Proved for HTML without these and with tags of known letters: the comparison passes only if elements, attributes and texts agree. difflib is assumed to report no difference exactly for equal sequences; the order of dictionary items is arbitrary."
  },
  {
   "property": "C73",
   "status": "partial",
   "theorems": [
    "Bglib.C73_kinds",
    "Bglib.C73_players",
    "Bglib.C73_record_partial",
    "Bglib.C73_false_moves",
    "Bglib.C73_false_names"
   ],
   "note": "False: what stands behind the number of a turn is not looked at, a comma or colon in a name is refused, and a player called Game 1 is taken for the beginning of a game. Proved for every text: exactly which lines are of which kind; exactly which names are understood; and that records with such names are accepted and cut into their games."
  },
  {
   "property": "C74",
   "status": "partial",
   "theorems": [
    "Bglib.C74_size_partial",
    "Bglib.C74_inside",
    "Bglib.C74_false"
   ],
   "note": "False: sizes below 8 are not tried (a text that fits in 7 is left out), though a box lower than 8 gets its height as size. Proved: the largest of the sizes tried is taken, the text lies in the middle of its box, and it is left out exactly if none of them fits. Sizes of texts are whatever the library answers."
  },
  {
   "property": "C75",
   "status": "partial",
   "theorems": [
    "Bglib.C75_operations",
    "Bglib.C75_pictures_partial",
    "Bglib.C75_false"
   ],
   "note": "False for boxes: an ellipse is one pixel wider and higher than its box. Proved: with all shipped styles at sharp sizes no pixel outside of the picture is painted. Both corners of rectangles and ellipses are taken to be painted, and a text to cover the size it is measured with."
  },
  {
   "property": "C76",
   "status": "proved",
   "theorems": [
    "Bglib.C76_again",
    "Bglib.C76_operations"
   ],
   "note": "What the library answers (fonts, sizes of texts, images) is fixed. Earlier pictures are arbitrary lists of drawing operations."
  },
  {
   "property": "C77",
   "status": "partial",
   "theorems": [
    "Bglib.C77_same_partial",
    "Bglib.C77_false",
    "Bglib.C77_false_changes"
   ],
   "note": "False: it always returns an empty dictionary, and writes the text of blocks once more into the HTML made later. Proved: without blocks the HTML is unchanged, leaving attributes aside (with a table of contents headings get their ids, see C99)."
  },
  {
   "property": "C78",
   "status": "partial",
   "theorems": [
    "Bglib.C78_read_partial",
    "Bglib.C78_inj",
    "Bglib.C78_prolog",
    "Bglib.C78_values",
    "Bglib.C78_shipped",
    "Bglib.C78_false_amp",
    "Bglib.C78_false_quote"
   ],
   "note": "False in general: values are written without escaping, so a style sheet with an ampersand or a quoted colour gives a text that is not XML. Proved for every board and all rules that set plain signs, which all eight shipped styles do."
  },
  {
   "property": "C79",
   "status": "partial",
   "theorems": [
    "Bglib.C79_valid",
    "Bglib.C79_read_partial",
    "Bglib.C79_attrs",
    "Bglib.C79_once",
    "Bglib.C79_false_file"
   ],
   "note": "Proved for the declarations make_dtd writes, for every board and all rules. False for the file backgammon.dtd: no board in any style obeys it."
  },
  {
   "property": "C80",
   "status": "partial",
   "theorems": [
    "Bglib.C80_xgid_partial",
    "Bglib.C80_xgid_position",
    "Bglib.C80_xgid_inj",
    "Bglib.C80_false_money",
    "Bglib.C80_false_stale",
    "Bglib.C80_fibs_partial"
   ],
   "note": "Proved for boards read into a new editor, of matches and of money games without points. False: with points recorded in a money game the ID cannot be read, and an editor used before keeps a double and a resignation of the earlier board."
  },
  {
   "property": "C81",
   "status": "partial",
   "theorems": [
    "Bglib.C81_read",
    "Bglib.C81_inj",
    "Bglib.C81_dance",
    "Bglib.C81_shown",
    "Bglib.C81_takeback",
    "Bglib.C81_dice",
    "Bglib.C81_false_die",
    "Bglib.C81_false_outside"
   ],
   "note": "Proved for all moves on the places of a board. The text does not tell the die used (C81_false_die), and places that do not exist are shown as off or are a ValueError."
  },
  {
   "property": "C82",
   "status": "partial",
   "theorems": [
    "Bglib.C82_dump",
    "Bglib.C82_human",
    "Bglib.C82_order",
    "Bglib.C82_pairs",
    "Bglib.C82_number",
    "Bglib.C82_authors",
    "Bglib.C82_false_indexing",
    "Bglib.C82_false_t2k",
    "Bglib.C82_false_getitem"
   ],
   "note": "False: db[key] is a TypeError in every reader, trice_indexing answers 0 for every position, and trice.t2k does not give the numbers of the authors' table. Proved: dump and human_readable give the values of the record asked for however the file is read, and a numbering of pairs that agrees with all numbers the authors give is one to one."
  },
  {
   "property": "C83",
   "status": "partial",
   "theorems": [
    "Bglib.C83_equity",
    "Bglib.C83_chance",
    "Bglib.C83_shown",
    "Bglib.C83_order",
    "Bglib.C83_cube_row",
    "Bglib.C83_move_row",
    "Bglib.C83_false_action",
    "Bglib.C83_false_chances",
    "Bglib.C83_false_small"
   ],
   "note": "Proved for all finite floats. False: the assertion about the action looks at another variable; chances given as parts of one, as in the data of the tests, are shown with one digit, so that 0.519 and 0.481 look the same."
  },
  {
   "property": "C84",
   "status": "partial",
   "theorems": [
    "Bglib.C84_text",
    "Bglib.C84_silent",
    "Bglib.C84_reason_partial",
    "Bglib.C84_wiki",
    "Bglib.C84_false_file",
    "Bglib.C84_false_timeout",
    "Bglib.C84_false_macros",
    "Bglib.C84_false_empty",
    "Bglib.C84_false_shorter"
   ],
   "note": "Proved: which texts come up, that it is silent exactly for texts formatted to valid HTML, and on a terminal prints the reason for failures. False: with output to a file no reason is written (os._exit drops the buffer), 'timed out' is printed for every failure, no text names a macro, empty HTML is a traceback, and looking for shorter failing texts is a NameError."
  },
  {
   "property": "C85",
   "status": "partial",
   "theorems": [
    "Bglib.C85_served_partial",
    "Bglib.C85_single",
    "Bglib.C85_idle",
    "Bglib.C85_false_send",
    "Bglib.C85_false_auto",
    "Bglib.C85_false_trigger",
    "Bglib.C85_false_window",
    "Bglib.C85_false_app",
    "Bglib.C85_active_partial"
   ],
   "note": "Proved in single steps and for sockets that take whole lines. False: send may take a part of a line and the rest is lost; in automatic steps all lines come at once and none after the interval; the trigger of a scenario is a NameError; the window accepts no connection; and the program around the scenarios cannot be started and fails at each poll once a scenario is added (C85_false_app)."
  },
  {
   "property": "C86",
   "status": "partial",
   "theorems": [
    "Bglib.C86_false",
    "Bglib.C86_false_shipped"
   ],
   "note": "False for every board, style and size: the device has no calc_mag, so that drawing is an AttributeError."
  },
  {
   "property": "C87",
   "status": "proved",
   "theorems": [
    "Bglib.C87_rounds",
    "Bglib.C87_line",
    "Bglib.C87_average",
    "Bglib.C87_experiments"
   ],
   "note": "With real numbers in place of floats. Nobody is out before the third round, at most half drop out in each later one, and three lives each bound the rounds from above."
  },
  {
   "property": "C88",
   "status": "partial",
   "theorems": [
    "Bglib.C88_written",
    "Bglib.C88_class",
    "Bglib.C88_listed",
    "Bglib.C88_drawn_partial",
    "Bglib.C88_false_position",
    "Bglib.C88_false_twice",
    "Bglib.C88_false_own"
   ],
   "note": "Proved for every list of positions: the file has exactly the two tests of each. False: one of the 24 listed positions can be drawn with no style, two are the same, and the program's own test of the beginning of the file fails. Proved: the other 23 are drawn with all eight styles at the size of the tests."
  },
  {
   "property": "C89",
   "status": "partial",
   "theorems": [
    "Bglib.C89_boards",
    "Bglib.C89_saved_partial",
    "Bglib.C89_false_session",
    "Bglib.C89_xgid",
    "Bglib.C89_drawn",
    "Bglib.C89_kept",
    "Bglib.C89_pictured"
   ],
   "note": "Proved for every course of a game: the boards stay possible, XGID passes them on, they can be drawn in every style and kept in the database, and the GNU Backgammon IDs bring them back in a match and in the first game of a money session. False: after a point won in a money session no board of the next game can be read back (the fault of C06, here for whole games)."
  },
  {
   "property": "C90",
   "status": "partial",
   "theorems": [
    "Bglib.C90_recognised_partial",
    "Bglib.C90_answers",
    "Bglib.C90_false_order",
    "Bglib.C90_delivered_partial",
    "Bglib.C90_length",
    "Bglib.C90_false_short",
    "Bglib.C90_false_rest"
   ],
   "note": "Proved: with the order of the class body (good lines before damaged ones) and no damaged line before, every board line is recognised, and read if it is your turn; anything beginning like a board line is taken for a good or a damaged one. False: with another order of the dictionary no board line is ever recognised; recognised lines with fewer than 39 numbers cannot be read, and a line that ends before the direction is read with a guessed direction."
  },
  {
   "property": "C91",
   "status": "partial",
   "theorems": [
    "Bglib.C91_legal",
    "Bglib.C91_accepted",
    "Bglib.C91_complete",
    "Bglib.C91_course",
    "Bglib.C91_over_partial",
    "Bglib.C91_refusals",
    "Bglib.C91_false_back"
   ],
   "note": "Proved for all turns in which suggestions are played and last movements taken back: they are legal, nothing suggested is refused, and every board a legal play leads to can be reached. False: an earlier movement can be taken back as suggested, which may leave movements that are not allowed, and then the dice may be picked up; picking up is right only as far as C19 goes."
  },
  {
   "property": "C92",
   "status": "partial",
   "theorems": [
    "Bglib.C92_shown_partial",
    "Bglib.C92_false_quoted"
   ],
   "note": "Proved for every document of such blocks, of any size and depth. False: a quoted line that begins like an item (a, b, ... i, v, * or a sign and a space) is shown as an item."
  },
  {
   "property": "C93",
   "status": "partial",
   "theorems": [
    "Bglib.C93_words_partial",
    "Bglib.C93_false_lines",
    "Bglib.C93_false_stretch"
   ],
   "note": "Proved where there is a space between any two pieces, also from line to line. False: the last word of a line and the first of the next are joined, and a word with a change of type in it falls apart."
  },
  {
   "property": "C94",
   "status": "partial",
   "theorems": [
    "Bglib.C94_depth_partial",
    "Bglib.C94_exact",
    "Bglib.C94_bound",
    "Bglib.C94_false_step",
    "Bglib.C94_false_alike"
   ],
   "note": "How deep items are whatever their indentations is told exactly (C94_exact); never deeper than indented. The depth is the indentation if the first item is indented by one space and no item by more than one more than the item before. False: behind a step of two spaces, an item indented by one less is in the outer list, and the next one indented alike is inside it."
  },
  {
   "property": "C95",
   "status": "partial",
   "theorems": [
    "Bglib.C95_land",
    "Bglib.C95_move",
    "Bglib.C95_bearoff_partial",
    "Bglib.C95_source_partial",
    "Bglib.C95_dice",
    "Bglib.C95_false_empty",
    "Bglib.C95_false_ace"
   ],
   "note": "Proved for all boards but for two faults: a point without a chequer may be allowed to bear off from with a larger die, and the ace point is never found for a larger die (what is found is told exactly)."
  },
  {
   "property": "C96",
   "status": "partial",
   "theorems": [
    "Bglib.C96_silent_partial",
    "Bglib.C96_closed",
    "Bglib.C96_refused",
    "Bglib.C96_false_handler"
   ],
   "note": "Proved from the moment the lock is free after the request, for every way in which threads take turns. False inside a delivery: if a handler closes the session the next subscribers still get the message."
  },
  {
   "property": "C97",
   "status": "partial",
   "theorems": [
    "Bglib.C97_all_partial",
    "Bglib.C97_meanwhile",
    "Bglib.C97_begins",
    "Bglib.C97_false_raise"
   ],
   "note": "Proved for handlers that do not change the list of subscribers; what was called is told at every moment, also if a handler raises. False if a handler raises: those behind it are not called."
  },
  {
   "property": "C98",
   "status": "proved",
   "theorems": [
    "Bglib.C98_open",
    "Bglib.C98_close",
    "Bglib.C98_isActive",
    "Bglib.C98_sendLine",
    "Bglib.C98_register",
    "Bglib.C98_unregister",
    "Bglib.C98_dispatch",
    "Bglib.C98_inactive",
    "Bglib.C98_raised",
    "Bglib.C98_received",
    "Bglib.C98_registered",
    "Bglib.C98_unregistered"
   ],
   "note": "Deliveries that never end are left out. The listener is told step by step: not active, receiving raises, a message is received."
  },
  {
   "property": "C99",
   "status": "partial",
   "theorems": [
    "Bglib.C99_order",
    "Bglib.C99_written",
    "Bglib.C99_entries_partial",
    "Bglib.C99_links",
    "Bglib.C99_first",
    "Bglib.C99_false_ext",
    "Bglib.C99_false_bold",
    "Bglib.C99_false_after"
   ],
   "note": "False: a table behind a heading has a link that leads nowhere when the page is first written; links to the web in headings are missing in entries; emphasis in a heading raises AttributeError. Proved: number, order and depth of entries for every text; exactly when the table can be written; the texts for headings made of texts and links with one text; exactly when all links lead, and that they do in every text that begins with the table."
  },
  {
   "property": "C100",
   "status": "partial",
   "theorems": [
    "Bglib.C100_read",
    "Bglib.C100_spaced",
    "Bglib.C100_written",
    "Bglib.C100_run_partial",
    "Bglib.C100_authors",
    "Bglib.C100_checked",
    "Bglib.C100_known",
    "Bglib.C100_false_names",
    "Bglib.C100_refused"
   ],
   "note": "Proved: every table is read as written, and the file asks for each row what it says; with at most nine chequers on a point and no pair twice, all tests are run, so for the table of the authors. False with ten chequers on a point: the names run the numbers together, two rows may give one name, and the first test is lost."
  },
  {
   "property": "C101",
   "status": "partial",
   "theorems": [
    "Bglib.C101_flip",
    "Bglib.C101_questions",
    "Bglib.C101_suggestions",
    "Bglib.C101_turn",
    "Bglib.C101_action_partial",
    "Bglib.C101_false_double",
    "Bglib.C101_history_partial",
    "Bglib.C101_ids"
   ],
   "note": "Proved for all questions, suggestions, turns and calls, for histories of any length, and for the IDs. False of exactly one call: a double when the points of the player and the cube are just the length of the match, which you may offer and the other player may not."
  },
  {
   "property": "C102",
   "status": "proved",
   "theorems": [
    "Bglib.C102_match",
    "Bglib.C102_beats",
    "Bglib.C102_often",
    "Bglib.C102_alike",
    "Bglib.C102_back"
   ],
   "note": "With real numbers in place of floats; the random numbers are the multiples of 1/n below 1 (n = 2^53 for random.random()). Prospects are compared by a one-to-one change of luck that keeps the random numbers; keys are in ascending order, as those of a small dictionary of numbers are."
  },
  {
   "property": "C103",
   "status": "partial",
   "theorems": [
    "Bglib.C103_script_partial",
    "Bglib.C103_files",
    "Bglib.C103_written",
    "Bglib.C103_styles_partial",
    "Bglib.C103_false_description",
    "Bglib.C103_false_packages",
    "Bglib.C103_false_fonts"
   ],
   "note": "The script is read by a reader of Python words and of the arguments of one call, made for this property. False for descriptions that end with a quotation mark or have backslashes (C103_false_description; the condition Fits excludes them), three packages of the library are not installed (C103_false_packages), and the font two styles name is not (C103_false_fonts)."
  },
  {
   "property": "C104",
   "status": "partial",
   "theorems": [
    "Bglib.C104_plain_partial",
    "Bglib.C104_safari",
    "Bglib.C104_false_safari",
    "Bglib.C104_false_matrix"
   ],
   "note": "Proved for the six plain styles. With safari exactly the boards with fewer than eight chequers of each player on the bar are painted (C104_safari, C104_false_safari); with matrix no board is, its font is missing (C104_false_matrix). The files are those of a listing of the directories; those that are there can be loaded in all sizes."
  },
  {
   "property": "C105",
   "status": "proved",
   "theorems": [
    "Bglib.C105_step",
    "Bglib.C105_turn",
    "Bglib.C105_length",
    "Bglib.C105_bounds"
   ],
   "note": ""
  },
  {
   "property": "C106",
   "status": "partial",
   "theorems": [
    "Bglib.C106_false",
    "Bglib.C106_false_points",
    "Bglib.C106_never",
    "Bglib.C106_ends_partial",
    "Bglib.C106_none"
   ],
   "note": "False: bearing off never ends a game (C106_never), and the loser may double and be given points (C106_false_points). Proved: games that end by a drop or a resignation are over (C106_ends_partial); who has no chequers left cannot move (C106_none)."
  },
  {
   "property": "C107",
   "status": "partial",
   "theorems": [
    "Bglib.C107_digest",
    "Bglib.C107_feed",
    "Bglib.C107_once",
    "Bglib.C107_order_partial",
    "Bglib.C107_games",
    "Bglib.C107_false"
   ],
   "note": "The digest: proved. The order: proved for records of one game; with several games these, and lines with the same number, can be exchanged (C107_games, C107_false)."
  },
  {
   "property": "C108",
   "status": "partial",
   "theorems": [
    "Bglib.C108_documents",
    "Bglib.C108_where_partial",
    "Bglib.C108_strays",
    "Bglib.C108_false",
    "Bglib.C108_false_contents"
   ],
   "note": "Proved for documents as in C92. For every text without a table of contents exactly the strays of the specification can be where they may not be: nothing else is (C108_where_partial), and all of them occur (C108_strays)."
  },
  {
   "property": "C109",
   "status": "partial",
   "theorems": [
    "Bglib.C109_login",
    "Bglib.C109_partial",
    "Bglib.C109_false"
   ],
   "note": "Proved for the login phase, and for the run phase unless the text after the number begins like a line of the command stat, as it does for users called bytes... or accounts..., where it is false (C109_false)."
  },
  {
   "property": "C110",
   "status": "partial",
   "theorems": [
    "Bglib.C110_comments_partial",
    "Bglib.C110_false",
    "Bglib.C110_games",
    "Bglib.C110_false_games"
   ],
   "note": "Proved for 20 of the 26 messages in comments and 35 sentences about games; the other 6 and 8 more are never recognised as what they are (C110_false, C110_false_games)."
  },
  {
   "property": "C111",
   "status": "partial",
   "theorems": [
    "Bglib.C111_nearest",
    "Bglib.C111_packages",
    "Bglib.C111_places",
    "Bglib.C111_modules_partial",
    "Bglib.C111_names_partial",
    "Bglib.C111_ends",
    "Bglib.C111_lost",
    "Bglib.C111_false"
   ],
   "note": "False: image/wxpython.py can never be imported, and 17 names in 7 modules are never found. Proved for every order of imports: all other modules can be imported and all other names are found, so nothing depends on the order."
  },
  {
   "property": "C112",
   "status": "partial",
   "theorems": [
    "Bglib.C112_chances",
    "Bglib.C112_order",
    "Bglib.C112_near",
    "Bglib.C112_gains",
    "Bglib.C112_computed",
    "Bglib.C112_false_overflow",
    "Bglib.C112_refused",
    "Bglib.C112_lib"
   ],
   "note": "False in the extreme: above a difference times root of length of about 618000 pow raises OverflowError (C112_false_overflow). Proved for all that can be computed, which includes everything up to 600000. Binary64 without gradual underflow; sqrt and pow of the C library are assumed right to one unit in the last place and monotone."
  },
  {
   "property": "C113",
   "status": "partial",
   "theorems": [
    "Bglib.C113_total",
    "Bglib.C113_lossless",
    "Bglib.C113_waiting",
    "Bglib.C113_lines_partial",
    "Bglib.C113_prompt_partial",
    "Bglib.C113_exact",
    "Bglib.C113_long",
    "Bglib.C113_false",
    "Bglib.C113_false_forged",
    "Bglib.C113_false_packets",
    "Bglib.C113_false_prompt",
    "Bglib.C113_commands",
    "Bglib.C113_sent"
   ],
   "note": "False of lines with 'login: ' in them: the pattern is searched in every phase of the session and anywhere in a line, so such a line is cut in two unless its end was read at the same time (C113_exact tells exactly when; C113_long: never if 48 characters follow). What stands behind becomes a message of its own: a shout of one user can be taken for the dice of another (C113_false_forged). Nothing is ever lost or put out of order (C113_lossless), without 'login: ' every division into packets gives the lines (C113_lines_partial), and the prompt is seen if the server waits there (C113_prompt_partial), not if a line follows in the same packet (C113_false_prompt)."
  },
  {
   "property": "C114",
   "status": "partial",
   "theorems": [
    "Bglib.C114_shown_partial",
    "Bglib.C114_links",
    "Bglib.C114_false_position",
    "Bglib.C114_false_escape"
   ],
   "note": "False of positions: the macro Position leaves the picture but not the element around it, so everything behind a position in its paragraph becomes part of that element (C114_false_position); proved for paragraphs with a position last. Macros cannot be escaped with an exclamation mark (C114_false_escape). Web addresses with & are the matter of C62; the time is assumed not to be the empty text."
  },
  {
   "property": "C115",
   "status": "partial",
   "theorems": [
    "Bglib.C115_apart",
    "Bglib.C115_entries",
    "Bglib.C115_ends",
    "Bglib.C115_left",
    "Bglib.C115_false_unchanged",
    "Bglib.C115_false_again"
   ],
   "note": "False that entries are left as they were: the dictionary is copied but not the players, so after any tournament among two or more some have fewer lives (C115_false_unchanged) and in a second one everybody but the first winner is out after one defeat (C115_false_again). Proved: with an object for each entry it goes as in C29; it ends however objects are shared; exactly what is left of everybody."
  },
  {
   "property": "C116",
   "status": "partial",
   "theorems": [
    "Bglib.C116_average",
    "Bglib.C116_order",
    "Bglib.C116_fair",
    "Bglib.C116_handicap",
    "Bglib.C116_near",
    "Bglib.C116_computed",
    "Bglib.C116_false_rounds",
    "Bglib.C116_lib"
   ],
   "note": "False in the extreme: with more than 1075 rounds the chance of the average is zero as computed and ZeroDivisionError is raised (C116_false_rounds). Proved for 1 to 1022 rounds, for every C library that answers nearly right (such exist, C116_lib); for ratings not too different and up to 100 rounds everything can be computed (C116_computed)."
  },
  {
   "property": "C117",
   "status": "partial",
   "theorems": [
    "Bglib.C117_closed_partial",
    "Bglib.C117_open_partial",
    "Bglib.C117_packets_partial",
    "Bglib.C117_session"
   ],
   "note": "Holds for handlers that return and leave the subscriptions and the connection alone (otherwise false, C31_false), while other threads do so too, and if \"login: \" occurs only as a prompt where the server waits (otherwise false, C113_false). C117_session is a whole session of a new client; its lines after the login are those of the interface for clients and about games (C109, C110)."
  },
  {
   "property": "C118",
   "status": "partial",
   "theorems": [
    "Bglib.C118_served_partial",
    "Bglib.C118_joined",
    "Bglib.C118_false"
   ],
   "note": "False of the file the tests use: its lines end with line feeds only, so that the client never sees the end of a line; whatever the packets, two messages are told, both as greetings before the login (C118_false), and of any text without carriage returns there are only as many messages as prompts, and one more (C118_joined). The test passes, as it looks for a greeting only. Proved for files whose lines end as those of the server do, without prompts, if the socket takes whole lines (C118_served_partial)."
  },
  {
   "property": "C119",
   "status": "partial",
   "theorems": [
    "Bglib.C119_mkdn",
    "Bglib.C119_rst",
    "Bglib.C119_tests",
    "Bglib.C119_tests_partial",
    "Bglib.C119_false",
    "Bglib.C119_shipped"
   ],
   "note": "False of the tests: the one for parse has the name of the next one, which takes its place, so that objects whose parse cannot be called pass (C119_false). Proved: exactly what passes (C119_tests), that formatters do, that nothing else does as long as parse can be called wherever it is defined, and that the formatters of the library pass if their converters take the empty text. The texts given to converters are proved for every sequence of calls. markdown and docutils are parameters; texts are of one type (str or unicode)."
  },
  {
   "property": "C120",
   "status": "partial",
   "theorems": [
    "Bglib.C120_own",
    "Bglib.C120_alone",
    "Bglib.C120_between",
    "Bglib.C120_stalled",
    "Bglib.C120_false"
   ],
   "note": "False of the lock: it is an attribute of the class, so all sessions share it, and a handler of one session that waits for a message to another waits for ever (C120_false). What belongs to a session is changed by its own threads only (C120_own), a session whose threads alone take turns behaves as the only one (C120_alone), turns of other sessions between that leave shared data alone can make it wait and nothing else (C120_between), and exclusion holds across sessions (C120_stalled)."
  },
  {
   "property": "C121",
   "status": "partial",
   "theorems": [
    "Bglib.C121_page_partial",
    "Bglib.C121_printed",
    "Bglib.C121_false_ascii",
    "Bglib.C121_false_title",
    "Bglib.C121_false_half",
    "Bglib.C121_false_analysis"
   ],
   "note": "Proved for ASCII titles without markup. False: other characters in a title end the script before anything is printed (C121_false_ascii), titles are not escaped (C121_false_title), a page may be begun and not ended (C121_false_half), and the database is given to an object that does not use it (C121_false_analysis)."
  },
  {
   "property": "C122",
   "status": "partial",
   "theorems": [
    "Bglib.C122_exclusive",
    "Bglib.C122_progress_partial",
    "Bglib.C122_finish_partial",
    "Bglib.C122_library",
    "Bglib.C122_bound",
    "Bglib.C122_stuck",
    "Bglib.C122_forever",
    "Bglib.C122_false"
   ],
   "note": "Proved if locks are taken in their order, which holds for what the library has itself (C122_library). False for subscribers whose handlers and other methods are synchronized with the lock Subscriber offers, if such a method uses the session (C122_false). Whatever threads do, they stop only in circles of threads that wait for one another (C122_stuck, C122_bound), and these never end (C122_forever)."
  },
  {
   "property": "C123",
   "status": "partial",
   "theorems": [
    "Bglib.C123_places",
    "Bglib.C123_states",
    "Bglib.C123_modules_partial",
    "Bglib.C123_names_partial",
    "Bglib.C123_missing",
    "Bglib.C123_false"
   ],
   "note": "Proved: no installed module needs one that is not installed, so exactly what fails in the source tree fails after the installation (C123_modules_partial, C123_names_partial): the module bglib.image.wxpython (C123_false) and the lost names of C111."
  },
  {
   "property": "C124",
   "status": "partial",
   "theorems": [
    "Bglib.C124_pinned_partial",
    "Bglib.C124_refused",
    "Bglib.C124_false",
    "Bglib.C124_false_shipped"
   ],
   "note": "Proved for files whose lines all name a version (C124_pinned_partial). False of the freeze.txt of the library: it has the address of a repository, and setuptools refuses scripts with such lines (C124_refused, C124_false). The setup.py of the library was written from another freeze.txt (C124_false_shipped). The reader of requirements is that of distribute 0.6.19 without extras and continued lines, written from memory of its source, which is not in the repository."
  },
  {
   "property": "C125",
   "status": "partial",
   "theorems": [
    "Bglib.C125_requirements",
    "Bglib.C125_partial",
    "Bglib.C125_false",
    "Bglib.C125_false_clone"
   ],
   "note": "False: the rule names freeze.txt but not VERSION and DESCRIPTION, so changes of these are not noticed (C125_false), and files of the same time count as up to date (C125_false_clone, with the files of the library). Proved if VERSION and DESCRIPTION are changed only after make clean and nothing is done twice at the same time; the requirements are those of freeze.txt in any case (C125_requirements)."
  },
  {
   "property": "C126",
   "status": "partial",
   "theorems": [
    "Bglib.C126_untouched",
    "Bglib.C126_clash_partial",
    "Bglib.C126_made_partial",
    "Bglib.C126_order_partial",
    "Bglib.C126_again_partial",
    "Bglib.C126_false_names",
    "Bglib.C126_false_order"
   ],
   "note": "False for other names: eight characters are cut off though only seven are tested, so barcut.jpg becomes ba.jpg and a-cut.jpg and a_cut.jpg give one file (C126_false_names); with a-cut-cut.jpg the result depends on the order of listing (C126_false_order). As long as no names clash, something is made of every such file (C126_clash_partial). Proved as stated if every name that ends with cut.jpg ends with -cut.jpg and what is made does not end so again, and the library (a parameter) can make all images. That nothing but files with made names is touched holds in any case (C126_untouched)."
  }
 ]
}