import Verif.Check.Wiki
/-
The tests of `doc/bgwiki_test.py` and `doc/macro_test.py`; written by `validate/wiki_tests.py`.
-/
namespace Bglib.Check

def test_bold : WikiTest := ⟨.line,
  (some t!"'''bold''', '''!''' can be bold too''', and '''! '''"),
  t!"<div><strong>bold</strong>, <strong>''' can be bold too</strong>, and <strong>! </strong></div>"⟩

def test_italic : WikiTest := ⟨.line,
  (some t!"''italic''"),
  t!"<div><i>italic</i></div>"⟩

def test_bolditalic : WikiTest := ⟨.line,
  (some t!"'''''bold italic'''''"),
  t!"<div><strong><i>bold italic</i></strong></div>"⟩

def test_underline : WikiTest := ⟨.line,
  (some t!"__underline__"),
  t!"<div><span class=\"underline\">underline</span></div>"⟩

def test_monospace_1 : WikiTest := ⟨.line,
  (some t!"`monospace`"),
  t!"<div><span class=\"monospace\">monospace</span></div>"⟩

def test_monospace_2 : WikiTest := ⟨.line,
  (some t!"{{{monospace}}}"),
  t!"<div><span class=\"monospace\">monospace</span></div>"⟩

def test_strike : WikiTest := ⟨.line,
  (some t!"~~strike-through~~"),
  t!"<div><del>strike-through</del></div>"⟩

def test_superscript : WikiTest := ⟨.line,
  (some t!",,subscript,,"),
  t!"<div><sub>subscript</sub></div>"⟩

def test_forced_br : WikiTest := ⟨.line,
  (some t!"Line 1[[BR]]Line 2\n"),
  t!"<div>Line 1<br />Line 2\n</div>"⟩

def test_heading_h1 : WikiTest := ⟨.wiki,
  (some t!"= heading =\n"),
  t!"<div><h1>heading</h1>\n</div>"⟩

def test_heading_h2 : WikiTest := ⟨.wiki,
  (some t!"== heading ==\n"),
  t!"<div><h2>heading</h2>\n</div>"⟩

def test_heading_h3 : WikiTest := ⟨.wiki,
  (some t!"=== heading ===\n"),
  t!"<div><h3>heading</h3>\n</div>"⟩

def test_itemize_style_unorder : WikiTest := ⟨.wiki,
  (some t!" * Item 1\n  * Item 1.1\n * Item 2\n"),
  t!"<div><ul>\n<li>Item 1\n<ul>\n<li>Item 1.1\n</li></ul>\n</li><li>Item 2\n</li></ul>\n</div>"⟩

def test_itemize_style_order_numeric : WikiTest := ⟨.wiki,
  (some t!" 1. Item 1\n  1. Item 1.1\n 1. Item 2\n"),
  t!"<div><ol>\n<li>Item 1\n<ol>\n<li>Item 1.1\n</li></ol>\n</li><li>Item 2\n</li></ol>\n</div>"⟩

def test_itemize_style_order_alpha : WikiTest := ⟨.wiki,
  (some t!" a. Item 1\n  1. Item 1.1\n a. Item 2\n"),
  t!"<div><ol class=\"loweralpha\">\n<li>Item 1\n<ol>\n<li>Item 1.1\n</li></ol>\n</li><li>Item 2\n</li></ol>\n</div>"⟩

def test_itemize_style_order_alpha_maxmin : WikiTest := ⟨.wiki,
  (some t!" a. Item a\n b. Item b\n c. Item c\n d. Item d\n e. Item e\n f. Item f\n g. Item g\n h. Item h\n"),
  t!"<div><ol class=\"loweralpha\">\n<li>Item a\n</li><li>Item b\n</li><li>Item c\n</li><li>Item d\n</li><li>Item e\n</li><li>Item f\n</li><li>Item g\n</li><li>Item h\n</li></ol>\n</div>"⟩

def test_itemize_style_order_roman : WikiTest := ⟨.wiki,
  (some t!" i. Item 1\n  1. Item 1.1\n i. Item 2\n"),
  t!"<div><ol class=\"lowerroman\">\n<li>Item 1\n<ol>\n<li>Item 1.1\n</li></ol>\n</li><li>Item 2\n</li></ol>\n</div>"⟩

def test_itemize_style_order_roman_maxmin : WikiTest := ⟨.wiki,
  (some t!" i. Item i\n ii. Item ii\n iii. Item iii\n iv. Item iv\n v. Item v\n vi. Item vi\n vii. Item vii\n viii. Item viii\n"),
  t!"<div><ol class=\"lowerroman\">\n<li>Item i\n</li><li>Item ii\n</li><li>Item iii\n</li><li>Item iv\n</li><li>Item v\n</li><li>Item vi\n</li><li>Item vii\n</li><li>Item viii\n</li></ol>\n</div>"⟩

def test_itemize_full : WikiTest := ⟨.wiki,
  (some t!" * Item 1\n  * Item 1.1\n * Item 2\n\n 1. Item 1\n  a. Item 1.a\n  a. Item 1.b\n   i. Item 1.b.i\n   i. Item 1.b.ii\n 1. Item 2\n"),
  t!"<div><ul>\n<li>Item 1\n<ul>\n<li>Item 1.1\n</li></ul>\n</li><li>Item 2\n</li></ul>\n</div><div><ol>\n<li>Item 1\n<ol class=\"loweralpha\">\n<li>Item 1.a\n</li><li>Item 1.b\n<ol class=\"lowerroman\">\n<li>Item 1.b.i\n</li><li>Item 1.b.ii\n</li></ol>\n</li></ol>\n</li><li>Item 2\n</li></ol>\n</div>"⟩

def test_itemize_plus_minus : WikiTest := ⟨.wiki,
  (some t!" - Item 1\n + Item 2\n -- Item 3\n ++ Item 4\n --- Item 5\n +++ Item 6\n"),
  t!"<div><ul class=\"sign\">\n<li class=\"minus\">Item 1\n</li><li class=\"plus\">Item 2\n</li><li class=\"doubleminus\">Item 3\n</li><li class=\"doubleplus\">Item 4\n</li><li class=\"tripleminus\">Item 5\n</li><li class=\"tripleplus\">Item 6\n</li></ul>\n</div>"⟩

def test_bad_indent : WikiTest := ⟨.wiki,
  (some t!"  8 "),
  t!"<div>\n<ul>\n<ol>\n<li>\n</li></ol>\n</ul>\n</div>\n"⟩

def test_bad_indent_a : WikiTest := ⟨.wiki,
  (some t!"  a. Item a"),
  t!"<div>\n<ul>\n<ol class=\"loweralpha\">\n<li>Item a\n</li></ol>\n</ul>\n</div>\n"⟩

def test_bad_indent_i : WikiTest := ⟨.wiki,
  (some t!"  i. Item 1"),
  t!"<div>\n<ul>\n<ol class=\"lowerroman\">\n<li>Item 1\n</li></ol>\n</ul>\n</div>\n"⟩

def test_bad_indent_1 : WikiTest := ⟨.wiki,
  (some t!"  1. Item 1"),
  t!"<div>\n<ul>\n<ol>\n<li>Item 1\n</li></ol>\n</ul>\n</div>\n"⟩

def test_definition : WikiTest := ⟨.wiki,
  (some t!"llama::\n  some kind of mammal, with hair\nppython::\n  some kind of reptile, without hair\n  (can you spot the typo?)\n"),
  t!"<div><dl>\n<dt>llama</dt>\n<dd>some kind of mammal, with hair\n</dd><dt>ppython</dt>\n<dd>some kind of reptile, without hair\n(can you spot the typo?)\n</dd></dl>\n</div>"⟩

def test_complicated_definition : WikiTest := ⟨.wiki,
  (some t!"[wiki:backgammon]::\n  some kind of board game for two players, with two dice and 15 chequers for each player\nBackgammonBase::\n  Web application to learn backgammon effectively.\n"),
  t!"<div><dl><dt><a href=\"/wiki/backgammon\" class=\"wiki-link\" title=\"backgammon\">backgammon</a>\n</dt><dd>some kind of board game for two players, with two dice and 15 chequers for each player\n</dd><dt><a href=\"/wiki/BackgammonBase\" class=\"wiki-link\" title=\"BackgammonBase\">BackgammonBase</a>\n</dt><dd>Web application to learn backgammon effectively.\n</dd></dl></div>"⟩

def test_itemize_in_definition : WikiTest := ⟨.wiki,
  (some t!"hitting::\n * gains pips.\n * gains tempo.\n * may dance.\n * put hit chequers behind of the prime.\n"),
  t!"<div><dl>\n<dt>hitting</dt>\n<dd><ul><li>gains pips.</li><li>gains tempo.</li><li>may dance.</li><li>put hit chequers behind of the prime.</li></ul></dd></dl>\n</div>"⟩

def test_itemize_and_text_in_definition : WikiTest := ⟨.wiki,
  (some t!"hitting::\n merits are\n * gains pips.\n * gains tempo.\n * may dance.\n * put hit chequers behind of the prime.\n"),
  t!"<div><dl>\n<dt>hitting</dt>\n<dd> merits are<ul><li>gains pips.</li><li>gains tempo.</li><li>may dance.</li><li>put hit chequers behind of the prime.</li></ul></dd></dl>\n</div>"⟩

def test_complex_mix_of_itemize_and_definition : WikiTest := ⟨.wiki,
  (some t!"hitting::\n  * gains pips.\n * gains tempo.\n  * may dance.\n * put hit chequers behind of the prime.\n  these are merits.(this is in dd, not in li)\n\nthis is not in dl"),
  t!"<div><dl>\n<dt>hitting</dt>\n<dd><ul><ul><li>gains pips.</li></ul><li>gains tempo.<ul><li>may dance.</li></ul></li><li>put hit chequers behind of the prime.</li></ul>these are merits.(this is in dd, not in li)\n</dd></dl>\n</div><div>this is not in dl</div>"⟩

def test_wikiname_in_definition : WikiTest := ⟨.wiki,
  (some t!"Trice::\n  WalterTrice is author of backgammon boot camp."),
  t!"<div><dl>\n<dt>Trice</dt>\n<dd>\n<a href=\"/wiki/WalterTrice\" class=\"wiki-link\" title=\"WalterTrice\">WalterTrice</a>is author of backgammon boot camp.</dd></dl>\n</div>"⟩

def test_preformatted_empty : WikiTest := ⟨.wiki,
  (some t!"{{{\n}}}\n"),
  t!"<div><pre class=\"wiki\"></pre></div>\n"⟩

def test_preformatted_emptyline : WikiTest := ⟨.wiki,
  (some t!"{{{\n\n}}}\n"),
  t!"<div><pre class=\"wiki\">\n</pre>\n</div>\n"⟩

def test_preformatted_emptylines : WikiTest := ⟨.wiki,
  (some t!"{{{\n\n\n}}}\n"),
  t!"<div><pre class=\"wiki\">\n\n</pre>\n</div>\n"⟩

def test_preformatted : WikiTest := ⟨.wiki,
  (some t!"{{{\n  def HelloWorld():\n     print \"Hello World\"\n}}}\n"),
  t!"<div><pre class=\"wiki\">  def HelloWorld():\n     print \"Hello World\"\n</pre></div>"⟩

def test_preformatted_2 : WikiTest := ⟨.wiki,
  (some t!"{{{\n#!preformat\n  def HelloWorld():\n     print \"Hello World\"\n}}}\n"),
  t!"<div><pre class=\"wiki\">  def HelloWorld():\n     print \"Hello World\"\n</pre></div>\n"⟩

def test_blockquoate : WikiTest := ⟨.wiki,
  (some t!"  This text is a quote from someone else.\n"),
  t!"<div>\n<blockquote>\n<p>\nThis text is a quote from someone else.\n</p>\n</blockquote>\n</div>\n"⟩

def test_blockquoate_multilines : WikiTest := ⟨.wiki,
  (some t!"  This text is a quote from someone else.\n  quote continues.\nintermission is here\n  This text is an another quote from someone else.\n"),
  t!"<div>\n<blockquote>\n<p>\nThis text is a quote from someone else.\nquote continues.\n</p>\n</blockquote>\nintermission is here\n<blockquote>\n<p>\nThis text is an another quote from someone else.\n</p>\n</blockquote>\n</div>\n"⟩

def test_DiscussionCitations : WikiTest := ⟨.wiki,
  (some t!">> Someone\"s original text\n> Someone else\"s reply text\nMy reply text"),
  t!"<div><blockquote class=\"citation\">\n<blockquote class=\"citation\">\n<p>\nSomeone\"s original text\n</p>\n</blockquote>\n<p>\nSomeone else\"s reply text\n</p>\n</blockquote>\nMy reply text</div>"⟩

def test_table : WikiTest := ⟨.wiki,
  (some t!"||Cell 1||Cell 2||Cell 3||\n||Cell 4||Cell 5||Cell 6||\n"),
  t!"<div><table class=\"wiki\">\n<tr><td>Cell 1</td><td>Cell 2</td><td>Cell 3</td></tr>\n<tr><td>Cell 4</td><td>Cell 5</td><td>Cell 6</td></tr>\n</table>\n</div>"⟩

def test_auto_anchor : WikiTest := ⟨.line,
  (some t!"http://www.tonic-water.com/"),
  t!"<div><a href=\"http://www.tonic-water.com/\" class=\"ext-link\" title=\"title\"><span class=\"icon\">http://www.tonic-water.com/</span></a></div>"⟩

def test_auto_anchor_https : WikiTest := ⟨.line,
  (some t!"https://www.tonic-water.com/"),
  t!"<div><a href=\"https://www.tonic-water.com/\" class=\"ext-link\" title=\"title\"><span class=\"icon\">https://www.tonic-water.com/</span></a></div>"⟩

def test_external_anchor_noname : WikiTest := ⟨.line,
  (some t!"[http://www.tonic-water.com/]"),
  t!"<div><a href=\"http://www.tonic-water.com/\" class=\"ext-link\" title=\"http://www.tonic-water.com/\"><span class=\"icon\">http://www.tonic-water.com/</span></a></div>"⟩

def test_external_anchor_named : WikiTest := ⟨.line,
  (some t!"[http://www.tonic-water.com/ Nori's personal server]"),
  t!"<div><a href=\"http://www.tonic-water.com/\" class=\"ext-link\" title=\"Nori's personal server\"><span class=\"icon\">Nori's personal server</span></a></div>"⟩

def test_wikiname_by_camelcase : WikiTest := ⟨.line,
  (some t!"BackgammonBase"),
  t!"<div><a href=\"/wiki/BackgammonBase\" class=\"wiki-link\" title=\"BackgammonBase\">BackgammonBase</a></div>"⟩

def test_wikiname_by_scheme_1 : WikiTest := ⟨.line,
  (some t!"[wiki:BackgammonBase]"),
  t!"<div><a href=\"/wiki/BackgammonBase\" class=\"wiki-link\" title=\"BackgammonBase\">BackgammonBase</a></div>"⟩

def test_wikiname_by_scheme_2 : WikiTest := ⟨.line,
  (some t!"[wiki:blot]"),
  t!"<div><a href=\"/wiki/blot\" class=\"wiki-link\" title=\"blot\">blot</a></div>"⟩

def test_entry_link : WikiTest := ⟨.line,
  (some t!"Entry: #1 or entry:1"),
  t!"<div>Entry: <a href=\"/entry/1\" class=\"entry\" title=\"#1\">#1</a> or <a href=\"/entry/1\" class=\"entry\" title=\"entry:1\">entry:1</a></div>"⟩

def test_query_link : WikiTest := ⟨.line,
  (some t!"Query: {1} or query:1"),
  t!"<div>Query: <a href=\"/query/1\" class=\"query\" title=\"{1}\">{1}</a> or <a href=\"/query/1\" class=\"query\" title=\"query:1\">query:1</a></div>"⟩

def test_match_link : WikiTest := ⟨.line,
  (some t!"Match: m1, [1] or match:1"),
  t!"<div>Match: <a class=\"match\" title=\"title\" href=\"/match/1\">m1</a>, <a class=\"match\" title=\"title\" href=\"/match/1\">[1]</a> or <a class=\"match\" title=\"title\" href=\"/match/1\">match:1</a></div>"⟩

def test_escaping_link : WikiTest := ⟨.line,
  (some t!"!#42 is not a link"),
  t!"<div>#42 is not a link</div>"⟩

def test_macro_timestamp : WikiTest := ⟨.line,
  (some t!"[[Timestamp]]"),
  t!"<b>Sun Jul 27 08:59:07 2008</b>"⟩

def test_macro_BR : WikiTest := ⟨.line,
  (some t!"[[BR]]"),
  t!"<div><br /></div>"⟩

def test_macro_Position_1 : WikiTest := ⟨.line,
  (some t!"[[Position(vzsAAFhu2xFABA:QYkqASAAIAAA)]]"),
  t!"<div><span class=\"position\">\n<img src=\"/image?gnubgid=vzsAAFhu2xFABA%3AQYkqASAAIAAA&amp;format=png&amp;width=400&amp;css=minimal&amp;height=300\" /></span>\n</div>"⟩

def test_macro_Position_2 : WikiTest := ⟨.line,
  (some t!"[[Position(jM/BATDQc+QBMA:cAkWAAAAAAAA)]]"),
  t!"<div><span class=\"position\">\n<img src=\"/image?gnubgid=jM%2FBATDQc%2BQBMA%3AcAkWAAAAAAAA&amp;format=png&amp;width=400&amp;css=minimal&amp;height=300\" /></span>\n</div>"⟩

def test_macro_analysis_move : WikiTest := ⟨.wiki,
  (some t!"[[Analysis(cNcxAxCY54YBBg:cAn7ADAAIAAA)]]"),
  t!"<div><table class=\"move\">\n<tr class=\"headerrow\"><th rowspan=\"2\">#</th><th rowspan=\"2\">move</th><th rowspan=\"2\">Ply</th><th colspan=\"6\"> Eq.(diff)</th></tr>\n<tr class=\"headerrow\"><th>Win</th><th>WinG</th><th>WinBg</th><th>Lose</th><th>LoseG</th><th>LoseBg</th></tr>\n<tr class=\"oddrow\"><th rowspan=\"2\">1</th><td rowspan=\"2\">21/15(2) 13/7(2)</td><td rowspan=\"2\">2</td><td class=\"Equity\" colspan=\"6\"> +0.975 </td></tr>\n<tr class=\"oddrow\"><td>0.8</td><td>0.1</td><td>0.0</td><td>0.2</td><td>0.0</td><td>0.0</td></tr>\n<tr class=\"evenrow\"><th rowspan=\"2\">2</th><td rowspan=\"2\">21/9(2)</td><td rowspan=\"2\">2</td><td class=\"Equity\" colspan=\"6\"> +0.914 (-0.061) </td></tr>\n<tr class=\"evenrow\"><td>0.7</td><td>0.1</td><td>0.0</td><td>0.3</td><td>0.0</td><td>0.0</td></tr>\n<tr class=\"oddrow\"><th rowspan=\"2\">3</th><td rowspan=\"2\">21/15(2) 8/2*(2)</td><td rowspan=\"2\">0</td><td class=\"Equity\" colspan=\"6\"> +0.614 (-0.362) </td></tr>\n<tr class=\"oddrow\"><td>0.7</td><td>0.2</td><td>0.0</td><td>0.3</td><td>0.1</td><td>0.0</td></tr>\n</table>\n</div>"⟩

def test_macro_analysis_cube : WikiTest := ⟨.wiki,
  (some t!"[[Analysis(vzsAAFhu2xFABA:QYkqASAAIAAA)]]"),
  t!"<div><table class=\"cubeless\">\n<tr class=\"headerrow\"><th rowspan=\"2\">Ply</th><th colspan=\"6\"> Cubeless Eq. </th></tr>\n<tr class=\"headerrow\"><th>Win</th><th>WinG</th><th>WinBg</th><th>Lose</th><th>LoseG</th><th>LoseBg</th></tr>\n<tr class=\"oddrow\"><td rowspan=\"2\">2</td><td class=\"Equity\" colspan=\"6\"> +0.011 (Money +0.008) </td></tr>\n<tr class=\"oddrow\"><td>0.5</td><td>0.1</td><td>0.0</td><td>0.5</td><td>0.1</td><td>0.0</td></tr>\n</table>\n<table class=\"cubeaction\">\n<tr class=\"headerrow\"><th>#</th><th>action</th><th colspan=\"2\"> Cubeful Eq. </th></tr>\n<tr class=\"actualrow\"><th>1</th><td> No double </td><td> +0.236 </td><td>  </td></tr>\n<tr class=\"evenrow\"><th>2</th><td> Double, pass </td><td> +0.236 </td><td> +0.764 </td></tr>\n<tr class=\"oddrow\"><th>3</th><td> Double, take </td><td> -0.096 </td><td> -0.332 </td></tr>\n</table>\n</div>"⟩

def test_escape_lt : WikiTest := ⟨.line,
  (some t!"<"),
  t!"<div>&lt;</div>"⟩

def test_escape_gt : WikiTest := ⟨.line,
  (some t!">"),
  t!"<div>&gt;</div>"⟩

def test_escape_amp : WikiTest := ⟨.line,
  (some t!"&"),
  t!"<div>&amp;</div>"⟩

def test_escape_combined : WikiTest := ⟨.line,
  (some t!"!&<>"),
  t!"<div>!&amp;&lt;&gt;</div>"⟩

def test_escape_wiki : WikiTest := ⟨.line,
  (some t!"!HogeHoge"),
  t!"<div>HogeHoge</div>"⟩

def test_bad_handler : WikiTest := ⟨(.macro t!"badname"),
  none,
  t!"<span class=\"error\">No such macro \"badname\" with argument \"None\"</span>"⟩

def test_BR : WikiTest := ⟨(.macro t!"BR"),
  none,
  t!"<br />"⟩

def test_position_box_1 : WikiTest := ⟨(.macro t!"Position"),
  (some t!"vzsAAFhu2xFABA:QYkqASAAIAAA"),
  t!"<span class=\"position\">\n<img src=\"/image?gnubgid=vzsAAFhu2xFABA%3AQYkqASAAIAAA&amp;format=png&amp;width=400&amp;css=minimal&amp;height=300\" /></span>\n"⟩

def test_position_box_2 : WikiTest := ⟨(.macro t!"Position"),
  (some t!"4HPwATDgc/ABMA:MAAAAAAAAAAA"),
  t!"<span class=\"position\">\n<img src=\"/image?gnubgid=4HPwATDgc%2FABMA%3AMAAAAAAAAAAA&amp;format=png&amp;width=400&amp;css=minimal&amp;height=300\" /></span>\n"⟩

def test_position_box_3 : WikiTest := ⟨(.macro t!"Position"),
  (some t!"haha:hahaha"),
  t!"<span class=\"error\">Bad args \"haha:hahaha\" for Position</span>"⟩

def test_position_box_4 : WikiTest := ⟨(.macro t!"Position"),
  (some t!"vzsAAFhu2xFABA:QYkqASAAIAAA, css=safari"),
  t!"<span class=\"position\">\n<img src=\"/image?gnubgid=vzsAAFhu2xFABA%3AQYkqASAAIAAA&amp;format=png&amp;width=400&amp;css=safari&amp;height=300\" /></span>\n"⟩

def test_position_box_5 : WikiTest := ⟨(.macro t!"Position"),
  (some t!"vzsAAFhu2xFABA:QYkqASAAIAAA,css=safari"),
  t!"<span class=\"position\"><img src=\"/image?gnubgid=vzsAAFhu2xFABA%3AQYkqASAAIAAA&amp;format=png&amp;width=400&amp;css=safari&amp;height=300\" /></span>"⟩

def test_position_box_6 : WikiTest := ⟨(.macro t!"Position"),
  (some t!"jM/BATDQc+QBMA:cAkWAAAAAAAA"),
  t!"<span class=\"position\">\n<img src=\"/image?gnubgid=jM%2FBATDQc%2BQBMA%3AcAkWAAAAAAAA&amp;format=png&amp;width=400&amp;css=minimal&amp;height=300\" /></span>\n"⟩

def test_analysis_box_cubeaction_1 : WikiTest := ⟨(.macro t!"Analysis"),
  (some t!"vzsAAFhu2xFABA:QYkqASAAIAAA"),
  t!"<table class=\"cubeless\">\n<tr class=\"headerrow\"><th rowspan=\"2\">Ply</th><th colspan=\"6\"> Cubeless Eq. </th></tr>\n<tr class=\"headerrow\"><th>Win</th><th>WinG</th><th>WinBg</th><th>Lose</th><th>LoseG</th><th>LoseBg</th></tr>\n<tr class=\"oddrow\"><td rowspan=\"2\">2</td><td class=\"Equity\" colspan=\"6\"> +0.011 (Money +0.008) </td></tr>\n<tr class=\"oddrow\"><td>0.5</td><td>0.1</td><td>0.0</td><td>0.5</td><td>0.1</td><td>0.0</td></tr>\n</table>\n<table class=\"cubeaction\">\n<tr class=\"headerrow\"><th>#</th><th>action</th><th colspan=\"2\"> Cubeful Eq. </th></tr>\n<tr class=\"actualrow\"><th>1</th><td> No double </td><td> +0.236 </td><td>  </td></tr>\n<tr class=\"evenrow\"><th>2</th><td> Double, pass </td><td> +0.236 </td><td> +0.764 </td></tr>\n<tr class=\"oddrow\"><th>3</th><td> Double, take </td><td> -0.096 </td><td> -0.332 </td></tr>\n</table>\n"⟩

def test_analysis_box_move_2 : WikiTest := ⟨(.macro t!"Analysis"),
  (some t!"cNcxAxCY54YBBg:cAn7ADAAIAAA"),
  t!"<table class=\"move\">\n<tr class=\"headerrow\"><th rowspan=\"2\">#</th><th rowspan=\"2\">move</th><th rowspan=\"2\">Ply</th><th colspan=\"6\"> Eq.(diff)</th></tr>\n<tr class=\"headerrow\"><th>Win</th><th>WinG</th><th>WinBg</th><th>Lose</th><th>LoseG</th><th>LoseBg</th></tr>\n<tr class=\"oddrow\"><th rowspan=\"2\">1</th><td rowspan=\"2\">21/15(2) 13/7(2)</td><td rowspan=\"2\">2</td><td class=\"Equity\" colspan=\"6\"> +0.975 </td></tr>\n<tr class=\"oddrow\"><td>0.8</td><td>0.1</td><td>0.0</td><td>0.2</td><td>0.0</td><td>0.0</td></tr>\n<tr class=\"evenrow\"><th rowspan=\"2\">2</th><td rowspan=\"2\">21/9(2)</td><td rowspan=\"2\">2</td><td class=\"Equity\" colspan=\"6\"> +0.914 (-0.061) </td></tr>\n<tr class=\"evenrow\"><td>0.7</td><td>0.1</td><td>0.0</td><td>0.3</td><td>0.0</td><td>0.0</td></tr>\n<tr class=\"oddrow\"><th rowspan=\"2\">3</th><td rowspan=\"2\">21/15(2) 8/2*(2)</td><td rowspan=\"2\">0</td><td class=\"Equity\" colspan=\"6\"> +0.614 (-0.362) </td></tr>\n<tr class=\"oddrow\"><td>0.7</td><td>0.2</td><td>0.0</td><td>0.3</td><td>0.1</td><td>0.0</td></tr>\n</table>\n"⟩

def test_analysis_box_2 : WikiTest := ⟨(.macro t!"Analysis"),
  (some t!"haha:hahaha"),
  t!"<span class=\"error\">Bad args \"haha:hahaha\" for Analysis</span>\n"⟩

def test_analysis_box_3 : WikiTest := ⟨(.macro t!"Analysis"),
  (some t!"cNcxAxCY54YBBg:cAn7ADAAIAAA"),
  t!"<table class=\"move\">\n<tr class=\"headerrow\"><th rowspan=\"2\">#</th><th rowspan=\"2\">move</th><th rowspan=\"2\">Ply</th><th colspan=\"6\"> Eq.(diff)</th></tr>\n<tr class=\"headerrow\"><th>Win</th><th>WinG</th><th>WinBg</th><th>Lose</th><th>LoseG</th><th>LoseBg</th></tr>\n<tr class=\"oddrow\"><th rowspan=\"2\">1</th><td rowspan=\"2\">21/15(2) 13/7(2)</td><td rowspan=\"2\">2</td><td class=\"Equity\" colspan=\"6\"> +0.975 </td></tr>\n<tr class=\"oddrow\"><td>0.8</td><td>0.1</td><td>0.0</td><td>0.2</td><td>0.0</td><td>0.0</td></tr>\n<tr class=\"evenrow\"><th rowspan=\"2\">2</th><td rowspan=\"2\">21/9(2)</td><td rowspan=\"2\">2</td><td class=\"Equity\" colspan=\"6\"> +0.914 (-0.061) </td></tr>\n<tr class=\"evenrow\"><td>0.7</td><td>0.1</td><td>0.0</td><td>0.3</td><td>0.0</td><td>0.0</td></tr>\n<tr class=\"oddrow\"><th rowspan=\"2\">3</th><td rowspan=\"2\">21/15(2) 8/2*(2)</td><td rowspan=\"2\">0</td><td class=\"Equity\" colspan=\"6\"> +0.614 (-0.362) </td></tr>\n<tr class=\"oddrow\"><td>0.7</td><td>0.2</td><td>0.0</td><td>0.3</td><td>0.1</td><td>0.0</td></tr>\n</table>\n"⟩

def wikiTests : List (String × WikiTest) := [
  ("test_bold", test_bold),
  ("test_italic", test_italic),
  ("test_bolditalic", test_bolditalic),
  ("test_underline", test_underline),
  ("test_monospace_1", test_monospace_1),
  ("test_monospace_2", test_monospace_2),
  ("test_strike", test_strike),
  ("test_superscript", test_superscript),
  ("test_forced_br", test_forced_br),
  ("test_heading_h1", test_heading_h1),
  ("test_heading_h2", test_heading_h2),
  ("test_heading_h3", test_heading_h3),
  ("test_itemize_style_unorder", test_itemize_style_unorder),
  ("test_itemize_style_order_numeric", test_itemize_style_order_numeric),
  ("test_itemize_style_order_alpha", test_itemize_style_order_alpha),
  ("test_itemize_style_order_alpha_maxmin", test_itemize_style_order_alpha_maxmin),
  ("test_itemize_style_order_roman", test_itemize_style_order_roman),
  ("test_itemize_style_order_roman_maxmin", test_itemize_style_order_roman_maxmin),
  ("test_itemize_full", test_itemize_full),
  ("test_itemize_plus_minus", test_itemize_plus_minus),
  ("test_bad_indent", test_bad_indent),
  ("test_bad_indent_a", test_bad_indent_a),
  ("test_bad_indent_i", test_bad_indent_i),
  ("test_bad_indent_1", test_bad_indent_1),
  ("test_definition", test_definition),
  ("test_complicated_definition", test_complicated_definition),
  ("test_itemize_in_definition", test_itemize_in_definition),
  ("test_itemize_and_text_in_definition", test_itemize_and_text_in_definition),
  ("test_complex_mix_of_itemize_and_definition", test_complex_mix_of_itemize_and_definition),
  ("test_wikiname_in_definition", test_wikiname_in_definition),
  ("test_preformatted_empty", test_preformatted_empty),
  ("test_preformatted_emptyline", test_preformatted_emptyline),
  ("test_preformatted_emptylines", test_preformatted_emptylines),
  ("test_preformatted", test_preformatted),
  ("test_preformatted_2", test_preformatted_2),
  ("test_blockquoate", test_blockquoate),
  ("test_blockquoate_multilines", test_blockquoate_multilines),
  ("test_DiscussionCitations", test_DiscussionCitations),
  ("test_table", test_table),
  ("test_auto_anchor", test_auto_anchor),
  ("test_auto_anchor_https", test_auto_anchor_https),
  ("test_external_anchor_noname", test_external_anchor_noname),
  ("test_external_anchor_named", test_external_anchor_named),
  ("test_wikiname_by_camelcase", test_wikiname_by_camelcase),
  ("test_wikiname_by_scheme_1", test_wikiname_by_scheme_1),
  ("test_wikiname_by_scheme_2", test_wikiname_by_scheme_2),
  ("test_entry_link", test_entry_link),
  ("test_query_link", test_query_link),
  ("test_match_link", test_match_link),
  ("test_escaping_link", test_escaping_link),
  ("test_macro_timestamp", test_macro_timestamp),
  ("test_macro_BR", test_macro_BR),
  ("test_macro_Position_1", test_macro_Position_1),
  ("test_macro_Position_2", test_macro_Position_2),
  ("test_macro_analysis_move", test_macro_analysis_move),
  ("test_macro_analysis_cube", test_macro_analysis_cube),
  ("test_escape_lt", test_escape_lt),
  ("test_escape_gt", test_escape_gt),
  ("test_escape_amp", test_escape_amp),
  ("test_escape_combined", test_escape_combined),
  ("test_escape_wiki", test_escape_wiki),
  ("test_bad_handler", test_bad_handler),
  ("test_BR", test_BR),
  ("test_position_box_1", test_position_box_1),
  ("test_position_box_2", test_position_box_2),
  ("test_position_box_3", test_position_box_3),
  ("test_position_box_4", test_position_box_4),
  ("test_position_box_5", test_position_box_5),
  ("test_position_box_6", test_position_box_6),
  ("test_analysis_box_cubeaction_1", test_analysis_box_cubeaction_1),
  ("test_analysis_box_move_2", test_analysis_box_move_2),
  ("test_analysis_box_2", test_analysis_box_2),
  ("test_analysis_box_3", test_analysis_box_3)]

end Bglib.Check
