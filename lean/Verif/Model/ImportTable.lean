import Verif.Model.Import
/-
The modules of bglib as far as names go; written by `validate/imports.py` from the sources.
Left out: tests, files that are run as programs (`stat/3knockout.py`, `image/resource/convert.py`,
`protocol/server.py`, `encoding/bearoff/test.py`), and blocks under `if __name__ == '__main__'`.
A name that is used or given more than once is listed once, and uses of the names of Python itself
(`object`, `len` and so on, which are always found) are not listed.  An import inside of a function
(`doc/doctree.py:68`, `doc/fuzzing.py:86-89`) gives a local name, which is not listed.
-/
namespace Bglib.Import
set_option maxRecDepth 20000

/-- `bglib/__init__.py:1-6`; attributes of values that are not modules, branches and calls are left out. -/
def m_bglib : Module where
  path := m!"bglib"
  package := true
  body := []
  later := []

/-- `bglib/doc/__init__.py:1-26`; attributes of values that are not modules, branches and calls are left out. -/
def m_bglib_doc : Module where
  path := m!"bglib.doc"
  package := true
  body := [
    .bind n!"Viewer", .use p!"Viewer", .bind n!"Formatter", .bind n!"Document"]
  later := []

/-- `bglib/doc/bgwiki.py:1-563`; attributes of values that are not modules, branches and calls are left out. -/
def m_bglib_doc_bgwiki : Module where
  path := m!"bglib.doc.bgwiki"
  package := false
  body := [
    .bind n!"re", .bind n!"string", .imp [] p!"bglib.doc" none, .imp [] p!"bglib.doc.doctree" none,
    .imp [] p!"bglib.doc.html" none, .imp [] p!"bglib.doc.macro" none, .imp [] p!"bglib.doc.rst" none,
    .use p!"bglib.doc.Formatter", .bind n!"BaseFormatter", .use p!"bglib.doc.doctree.BgWikiElementNode",
    .use p!"BaseFormatter", .bind n!"WrappingFormatterElement", .bind n!"PreformatFormatter",
    .use p!"bglib.doc.html.UNSAFE_LETTERS", .bind n!"LineFormatter", .bind n!"Formatter",
    .frm [] p!"bglib.doc.fuzzing" [(n!"Gene", n!"Gene")], .use p!"Gene", .bind n!"wGene"]
  later := [
    p!"bglib.doc.doctree.BgWikiElementRoot", p!"bglib.doc.doctree.HtmlEditor",
    p!"bglib.doc.doctree.HtmlWriter", p!"re.compile", p!"re.UNICODE", p!"re.LOCALE",
    p!"bglib.doc.doctree.Editor", p!"bglib.doc.doctree.BgWikiElementNode.__init__",
    p!"bglib.doc.rst.Formatter", p!"PreformatFormatter", p!"WrappingFormatterElement",
    p!"bglib.doc.Formatter.__init__", p!"bglib.doc.html.escape", p!"bglib.doc.doctree.DivElement",
    p!"bglib.doc.doctree.BlockQuoteElement", p!"bglib.doc.doctree.DefinitionBodyElement",
    p!"bglib.doc.doctree.CitationElement", p!"bglib.doc.doctree.BoldElement",
    p!"bglib.doc.doctree.ItalicElement", p!"bglib.doc.doctree.UnderlineElement",
    p!"bglib.doc.doctree.StrikeElement", p!"bglib.doc.doctree.SubscriptElement",
    p!"bglib.doc.doctree.SuperscriptElement", p!"bglib.doc.doctree.H3Element",
    p!"bglib.doc.doctree.H2Element", p!"bglib.doc.doctree.H1Element",
    p!"bglib.doc.doctree.MonospaceElement", p!"bglib.doc.doctree.TableElement",
    p!"bglib.doc.doctree.TableRowElement", p!"bglib.doc.doctree.TableCellElement",
    p!"bglib.doc.doctree.CitationContentElement", p!"bglib.doc.doctree.ListElement",
    p!"bglib.doc.doctree.ItemizeElement", p!"bglib.doc.doctree.DefinitionListElement",
    p!"bglib.doc.doctree.DefinitionHeaderElement", p!"bglib.doc.doctree.AnchorElement",
    p!"bglib.doc.doctree.SpanElement", p!"bglib.doc.macro.dispatch", p!"LineFormatter"]

/-- `bglib/doc/doctree.py:1-426`; attributes of values that are not modules, branches and calls are left out. -/
def m_bglib_doc_doctree : Module where
  path := m!"bglib.doc.doctree"
  package := false
  body := [
    .bind n!"Node", .use p!"Node", .bind n!"Root", .bind n!"BgWikiElementNode",
    .use p!"BgWikiElementNode", .bind n!"BgWikiElementMacroNode", .use p!"Root",
    .bind n!"BgWikiElementRoot", .bind n!"LineElement", .use p!"LineElement", .bind n!"SpanElement",
    .use p!"SpanElement", .bind n!"BRElement", .bind n!"BoldElement", .bind n!"ItalicElement",
    .bind n!"UnderlineElement", .bind n!"StrikeElement", .bind n!"SubscriptElement",
    .bind n!"SuperscriptElement", .bind n!"MonospaceElement", .bind n!"TableCellElement",
    .bind n!"TableRowElement", .bind n!"TableHeaderElement", .bind n!"ItemizeElement",
    .bind n!"DefinitionHeaderElement", .bind n!"AnchorElement", .bind n!"BoxElement",
    .use p!"BoxElement", .bind n!"HeadingElement", .use p!"HeadingElement", .bind n!"H1Element",
    .bind n!"H2Element", .bind n!"H3Element", .bind n!"DefinitionBodyElement", .bind n!"DivElement",
    .bind n!"ImgElement", .bind n!"DefinitionListElement", .bind n!"TableElement",
    .bind n!"BlockQuoteElement", .bind n!"CitationContentElement", .bind n!"CitationElement",
    .bind n!"ListElement", .bind n!"Text", .bind n!"Editor", .use p!"Editor", .bind n!"HtmlEditor",
    .bind n!"Visitor", .use p!"Visitor", .bind n!"DebugVisitor", .bind n!"PrintVisitor",
    .bind n!"HtmlWriter", .bind n!"PDFWriter"]
  later := [
    p!"Node", p!"Visitor", p!"Node.__init__", p!"BgWikiElementMacroNode",
    p!"BgWikiElementNode.__init__", p!"LineElement", p!"SpanElement", p!"TableRowElement",
    p!"TableCellElement", p!"TableHeaderElement", p!"ItemizeElement", p!"ListElement", p!"TableElement",
    p!"BoxElement", p!"DefinitionBodyElement", p!"DefinitionListElement", p!"DefinitionHeaderElement",
    p!"CitationContentElement", p!"CitationElement", p!"Root", p!"Text", p!"Visitor.__init__"]

/-- `bglib/doc/fuzzing.py:1-132`; attributes of values that are not modules, branches and calls are left out. -/
def m_bglib_doc_fuzzing : Module where
  path := m!"bglib.doc.fuzzing"
  package := false
  body := [
    .bind n!"sys", .bind n!"StringIO", .bind n!"traceback", .bind n!"random",
    .imp [] p!"bglib.doc.html" none, .bind n!"Error", .use p!"Error", .bind n!"FormatError",
    .bind n!"ParseError", .bind n!"Gene", .bind n!"fuzz_it"]
  later := [
    p!"StringIO.StringIO", p!"traceback.print_tb", p!"sys.exc_info", p!"random.randint",
    p!"FormatError", p!"bglib.doc.html.validate", p!"ParseError", p!"Gene", p!"iter_subset", p!"g",
    p!"is_ok", p!"sys.argv"]

/-- `bglib/doc/html.py:1-130`; attributes of values that are not modules, branches and calls are left out. -/
def m_bglib_doc_html : Module where
  path := m!"bglib.doc.html"
  package := false
  body := [
    .bind n!"re", .bind n!"unittest", .bind n!"pprint", .bind n!"difflib", .bind n!"xml",
    .bind n!"UNSAFE_LETTERS", .bind n!"escape", .use p!"re.compile", .bind n!"crlf", .bind n!"gt",
    .bind n!"nomalize", .bind n!"ELEMENT", .bind n!"ATTRNAME", .bind n!"ATTRVALUE", .use p!"ATTRNAME",
    .use p!"ATTRVALUE", .bind n!"ATTRIBUTE", .use p!"ATTRIBUTE", .bind n!"ATTRIBUTE_LIST",
    .use p!"ELEMENT", .use p!"ATTRIBUTE_LIST", .bind n!"TAG", .bind n!"TEXT", .use p!"TAG",
    .use p!"TEXT", .bind n!"TAG_OR_TEXT", .bind n!"r_attribute", .bind n!"r_tag", .use p!"TAG_OR_TEXT",
    .bind n!"r_tag_or_text", .bind n!"tuplify_attr", .bind n!"dictify_attr", .bind n!"tuplify",
    .bind n!"tupdict", .bind n!"cmp_tuple", .bind n!"cmp", .use p!"unittest.TestCase",
    .bind n!"HtmlTestCase", .bind n!"validate"]
  later := [
    p!"re.sub", p!"UNSAFE_LETTERS", p!"crlf", p!"gt", p!"r_attribute.finditer",
    p!"r_tag_or_text.finditer", p!"dictify_attr", p!"tupdict", p!"nomalize",
    p!"difflib.SequenceMatcher", p!"difflib.unified_diff", p!"cmp_tuple", p!"pprint.pprint",
    p!"xml.parsers.expat.ParserCreate"]

/-- `bglib/doc/macro.py:1-528`; attributes of values that are not modules, branches and calls are left out. -/
def m_bglib_doc_macro : Module where
  path := m!"bglib.doc.macro"
  package := false
  body := [
    .bind n!"types", .bind n!"string", .bind n!"re", .bind n!"time", .bind n!"datetime",
    .bind n!"urllib", .star [] p!"bglib.model.constants", .imp [] p!"bglib.doc.html" none,
    .imp [] p!"bglib.doc.doctree" none, .bind n!"signed_one_three", .bind n!"percent_two_one",
    .bind n!"_handlers", .bind n!"_get_name", .bind n!"register", .bind n!"unregister", .bind n!"_db",
    .bind n!"setup", .bind n!"dispatch", .bind n!"_bad_name_handler", .bind n!"_bad_args_handler",
    .bind n!"Processor", .bind n!"BR", .use p!"register", .use p!"BR", .bind n!"Timestamp",
    .use p!"Timestamp", .use p!"bglib.doc.doctree.Editor", .bind n!"TocEditor",
    .use p!"bglib.doc.doctree.Visitor", .use p!"bglib.doc.doctree.H1Element",
    .use p!"bglib.doc.doctree.H2Element", .use p!"bglib.doc.doctree.H3Element", .bind n!"TocVisitor",
    .use p!"bglib.doc.doctree.BgWikiElementMacroNode", .bind n!"TableOfContentNode",
    .bind n!"TableOfContent", .use p!"TableOfContent", .use p!"re.compile", .bind n!"_arg_pattern",
    .bind n!"_parse_position", .bind n!"Position", .use p!"Position", .bind n!"Analysis",
    .use p!"Analysis", .bind n!"CubeAction_table_header", .bind n!"CubeAction_table_row",
    .bind n!"Movelisting_header", .bind n!"Movelisting_row", .bind n!"CubelessEquity"]
  later := [
    p!"Processor", p!"types.FunctionType", p!"_handlers.update", p!"_get_name", p!"_handlers.remove",
    p!"bglib.doc.doctree.Editor", p!"_handlers.get", p!"_bad_args_handler", p!"_bad_name_handler",
    p!"string.Template", p!"bglib.doc.doctree.SpanElement", p!"bglib.doc.html.escape",
    p!"bglib.doc.doctree.BRElement", p!"bglib.doc.doctree.BoldElement", p!"datetime.datetime.now",
    p!"TocVisitor", p!"bglib.doc.doctree.ListElement", p!"bglib.doc.doctree.Text",
    p!"bglib.doc.doctree.AnchorElement", p!"bglib.doc.doctree.HeadingElement",
    p!"bglib.doc.doctree.ItemizeElement", p!"TocEditor", p!"bglib.doc.doctree.BgWikiElementRoot",
    p!"bglib.doc.doctree.HtmlWriter", p!"TableOfContentNode", p!"_arg_pattern.match",
    p!"_parse_position", p!"bglib.doc.doctree.ImgElement", p!"urllib.urlencode", p!"_db.get_analysis",
    p!"CubelessEquity", p!"bglib.doc.doctree.TableElement", p!"CubeAction_table_header",
    p!"CubeAction_table_row", p!"Movelisting_header", p!"Movelisting_row",
    p!"bglib.doc.doctree.TableRowElement", p!"bglib.doc.doctree.TableHeaderElement",
    p!"CUBEACTION_TYPES", p!"signed_one_three", p!"bglib.doc.doctree.TableCellElement",
    p!"CUBEACTION_STRINGS", p!"percent_two_one"]

/-- `bglib/doc/mkdn.py:1-50`; attributes of values that are not modules, branches and calls are left out. -/
def m_bglib_doc_mkdn : Module where
  path := m!"bglib.doc.mkdn"
  package := false
  body := [
    .bind n!"markdown", .imp [] p!"bglib.doc" none, .use p!"bglib.doc.Formatter", .bind n!"Formatter",
    .frm [] p!"bglib.doc.fuzzing" [(n!"Gene", n!"Gene")], .use p!"Gene", .bind n!"mkdnGene"]
  later := [
    p!"bglib.doc.Formatter.__init__", p!"markdown.Markdown"]

/-- `bglib/doc/mock.py:1-42`; attributes of values that are not modules, branches and calls are left out. -/
def m_bglib_doc_mock : Module where
  path := m!"bglib.doc.mock"
  package := false
  body := [
    .star [] p!"bglib.model.constants", .bind n!"DataBaseMock"]
  later := [
    p!"NO_DOUBLE", p!"DOUBLE_PASS", p!"DOUBLE_TAKE"]

/-- `bglib/doc/rst.py:1-103`; attributes of values that are not modules, branches and calls are left out. -/
def m_bglib_doc_rst : Module where
  path := m!"bglib.doc.rst"
  package := false
  body := [
    .bind n!"core", .bind n!"io", .imp [] p!"bglib.doc" none, .use p!"bglib.doc.Formatter",
    .bind n!"Formatter", .frm [] p!"bglib.doc.fuzzing" [(n!"Gene", n!"Gene")], .use p!"Gene",
    .bind n!"rstGene"]
  later := [
    p!"core.publish_parts"]

/-- `bglib/doc/viewer_type.py:1-40`; attributes of values that are not modules, branches and calls are left out. -/
def m_bglib_doc_viewer_type : Module where
  path := m!"bglib.doc.viewer_type"
  package := false
  body := [
    .bind n!"unittest", .imp [] p!"bglib.doc" none, .use p!"unittest.TestCase",
    .bind n!"ViewerDuckTypeTest", .use p!"ViewerDuckTypeTest", .bind n!"FormatterDuckTypeTest"]
  later := [
    p!"bglib.doc.Viewer", p!"bglib.doc.Formatter"]

/-- `bglib/encoding/__init__.py:1-20`; attributes of values that are not modules, branches and calls are left out. -/
def m_bglib_encoding : Module where
  path := m!"bglib.encoding"
  package := true
  body := [
    .bind n!"exceptions", .use p!"exceptions.Exception", .bind n!"EncodingError",
    .use p!"EncodingError", .bind n!"DecodeError", .bind n!"InconsistentData", .bind n!"UndefinedTurn"]
  later := []

/-- `bglib/encoding/FIBS.py:1-209`; attributes of values that are not modules, branches and calls are left out. -/
def m_bglib_encoding_FIBS : Module where
  path := m!"bglib.encoding.FIBS"
  package := false
  body := [
    .bind n!"re", .frm [] p!"bglib.model" [(n!"BoardEditor", n!"BoardEditor")],
    .star [] p!"bglib.model.constants", .bind n!"_FIBSBoardState", .bind n!"decode", .bind n!"encode",
    .use p!"re.compile", .bind n!"die_expr", .bind n!"get_dice", .bind n!"name_expr",
    .bind n!"get_name", .bind n!"taker_name_expr", .bind n!"get_taker_name", .bind n!"get_move",
    .bind n!"score_expr", .bind n!"get_score", .bind n!"match_score_expr", .bind n!"get_match_scores",
    .bind n!"get_resign_score"]
  later := [
    p!"BoardEditor", p!"_FIBSBoardState", p!"CENTER", p!"YOU", p!"HIM", p!"ON_GOING",
    p!"bglib.model.constants.on_going", p!"INVALID", p!"FINISHED", p!"RESIGN_NONE",
    p!"die_expr.findall", p!"name_expr.search", p!"bglib.model.move.Move",
    p!"bglib.model.constants.you", p!"bglib.model.util.move_pton", p!"bglib.model.move.PartialMove",
    p!"bglib.model.constants.him", p!"score_expr.findall", p!"match_score_expr.findall"]

/-- `bglib/encoding/bearoff/__init__.py:1-88`; attributes of values that are not modules, branches and calls are left out. -/
def m_bglib_encoding_bearoff : Module where
  path := m!"bglib.encoding.bearoff"
  package := true
  body := [
    .bind n!"fact", .bind n!"C", .bind n!"C_Hash", .bind n!"C_RHash", .bind n!"backward",
    .bind n!"count", .bind n!"D", .bind n!"D_Hash", .bind n!"D_RHash", .bind n!"WTN",
    .bind n!"BackgammonCombination", .bind n!"BackgammonCombination_allC", .bind n!"DBReader"]
  later := [
    p!"C", p!"D"]

/-- `bglib/encoding/bearoff/gnubgdb.py:1-73`; attributes of values that are not modules, branches and calls are left out. -/
def m_bglib_encoding_bearoff_gnubgdb : Module where
  path := m!"bglib.encoding.bearoff.gnubgdb"
  package := false
  body := [
    .frm [] p!"bglib.encoding.gnubgid" [(n!"decode_position", n!"decode_position")],
    .imp [] p!"bglib.encoding.bearoff" none,
    .frm [] p!"bglib.encoding.bearoff" [(n!"C", n!"C"), (n!"count", n!"count"), (n!"backward", n!"backward")],
    .bind n!"f", .bind n!"oneside_index", .bind n!"bearoff_param", .bind n!"gnubg_Hugh_indexing",
    .use p!"bglib.encoding.bearoff.DBReader", .bind n!"DBRreader"]
  later := [
    p!"C", p!"f", p!"backward", p!"count", p!"decode_position", p!"bearoff_param", p!"oneside_index"]

/-- `bglib/encoding/bearoff/nori.py:1-70`; attributes of values that are not modules, branches and calls are left out. -/
def m_bglib_encoding_bearoff_nori : Module where
  path := m!"bglib.encoding.bearoff.nori"
  package := false
  body := [
    .bind n!"struct", .frm [] p!"bglib.encoding.gnubgid" [(n!"decode_position", n!"decode_position")],
    .frm [] p!"bglib.encoding" [(n!"bearoff", n!"bearoff")],
    .frm [] p!"bglib.encoding.bearoff" [(n!"C", n!"C"), (n!"C_Hash", n!"C_Hash"), (n!"C_RHash", n!"C_RHash"), (n!"D", n!"D"), (n!"D_Hash", n!"D_Hash")],
    .frm [] p!"bglib.encoding.bearoff" [(n!"count", n!"count"), (n!"backward", n!"backward")],
    .bind n!"sigmaD", .bind n!"i", .use p!"sigmaD", .use p!"i", .use p!"D", .bind n!"oneside_upto6_t2k",
    .bind n!"oneside_upto6_k2t", .use p!"bearoff.DBReader", .bind n!"DBRreader"]
  later := [
    p!"count", p!"sigmaD", p!"C_Hash", p!"C_RHash", p!"struct.unpack", p!"human_readable_eq"]

/-- `bglib/encoding/bearoff/t2k.py:1-108`; attributes of values that are not modules, branches and calls are left out. -/
def m_bglib_encoding_bearoff_t2k : Module where
  path := m!"bglib.encoding.bearoff.t2k"
  package := false
  body := [
    .bind n!"writetest", .bind n!"dat", .bind n!"s2t", .bind n!"dat2case", .bind n!"selftest",
    .use p!"dat2case", .use p!"dat", .bind n!"cases", .use p!"cases", .bind n!"d", .use p!"selftest",
    .bind n!"n", .bind n!"t", .use p!"d", .use p!"n", .use p!"t"]
  later := [
    p!"s2t"]

/-- `bglib/encoding/bearoff/trice.py:1-66`; attributes of values that are not modules, branches and calls are left out. -/
def m_bglib_encoding_bearoff_trice : Module where
  path := m!"bglib.encoding.bearoff.trice"
  package := false
  body := [
    .bind n!"struct", .frm [] p!"bglib.encoding.gnubgid" [(n!"decode_position", n!"decode_position")],
    .frm [] p!"bglib.encoding" [(n!"bearoff", n!"bearoff")],
    .frm [] p!"bglib.encoding.bearoff" [(n!"C", n!"C"), (n!"C_Hash", n!"C_Hash"), (n!"C_RHash", n!"C_RHash"), (n!"D", n!"D"), (n!"D_Hash", n!"D_Hash")],
    .frm [] p!"bglib.encoding.bearoff" [(n!"count", n!"count"), (n!"backward", n!"backward")],
    .bind n!"t2k", .bind n!"trice_indexing", .bind n!"human_readable_eq", .use p!"bearoff.DBReader",
    .bind n!"DBRreader"]
  later := [
    p!"count", p!"C_Hash", p!"D", p!"struct.unpack", p!"human_readable_eq"]

/-- `bglib/encoding/dbbyte.py:1-106`; attributes of values that are not modules, branches and calls are left out. -/
def m_bglib_encoding_dbbyte : Module where
  path := m!"bglib.encoding.dbbyte"
  package := false
  body := [
    .frm [] p!"bglib.model" [(n!"Board", n!"Board")],
    .frm [] p!"bglib.model" [(n!"BoardEditor", n!"BoardEditor")],
    .frm [] p!"bglib.model" [(n!"constants", n!"constants")], .bind n!"signedord", .bind n!"signedchr",
    .bind n!"encode_position", .bind n!"decode_position", .bind n!"distance",
    .bind n!"DatabaseBytesExpression"]
  later := [
    p!"signedchr", p!"signedord", p!"Board", p!"Board.defaults.keys", p!"constants.YOU",
    p!"encode_position", p!"constants.HIM", p!"Board.defaults", p!"BoardEditor", p!"decode_position"]

/-- `bglib/encoding/gnubgid.py:1-288`; attributes of values that are not modules, branches and calls are left out. -/
def m_bglib_encoding_gnubgid : Module where
  path := m!"bglib.encoding.gnubgid"
  package := false
  body := [
    .bind n!"struct", .bind n!"standard_b64encode", .bind n!"standard_b64decode", .bind n!"BitsArray",
    .star [] p!"bglib.model.constants", .imp [] p!"bglib.encoding" none, .bind n!"ByteContext",
    .bind n!"seq2bytes", .bind n!"byts2seq", .bind n!"twoside_encode", .bind n!"twoside_decode",
    .bind n!"encode_position", .bind n!"decode_position", .bind n!"Validator", .use p!"Validator",
    .bind n!"SingleIntValidator", .use p!"SingleIntValidator", .bind n!"single_int",
    .bind n!"SingleBooleanValidator", .use p!"SingleBooleanValidator", .bind n!"single_boolean",
    .bind n!"DoubleIntValidator", .use p!"DoubleIntValidator", .bind n!"double_int_tuple",
    .use p!"single_int", .use p!"single_boolean", .use p!"double_int_tuple", .bind n!"MatchProxy",
    .bind n!"encode_match", .bind n!"decode_match", .bind n!"encode", .bind n!"decode"]
  later := [
    p!"struct.pack", p!"ByteContext", p!"struct.unpack", p!"seq2bytes", p!"byts2seq",
    p!"standard_b64encode", p!"twoside_encode", p!"standard_b64decode", p!"twoside_decode",
    p!"bglib.encoding.DecodeError", p!"BitsArray", p!"MatchProxy", p!"encode_match", p!"YOU", p!"HIM",
    p!"encode_position", p!"decode_match", p!"ON_GOING", p!"bglib.encoding.InconsistentData",
    p!"decode_position", p!"bglib.encoding.UndefinedTurn"]

/-- `bglib/encoding/xgid.py:1-155`; attributes of values that are not modules, branches and calls are left out. -/
def m_bglib_encoding_xgid : Module where
  path := m!"bglib.encoding.xgid"
  package := false
  body := [
    .star [] p!"bglib.model.constants", .imp [] p!"bglib.encoding" none, .bind n!"XGID_PLAYER2",
    .bind n!"XGID_PLAYER1", .bind n!"XGID_CENTER", .bind n!"CHEQUER_HIM", .bind n!"CHEQUER_YOU",
    .use p!"CHEQUER_HIM", .bind n!"i", .bind n!"v", .bind n!"conv_him", .use p!"CHEQUER_YOU",
    .bind n!"conv_you", .bind n!"decode_position", .bind n!"decode"]
  later := [
    p!"bglib.encoding.DecodeError", p!"conv_him.get", p!"conv_you.get", p!"decode_position",
    p!"XGID_PLAYER1", p!"YOU", p!"XGID_PLAYER2", p!"HIM", p!"XGID_CENTER", p!"CENTER",
    p!"bglib.encoding.InconsistentData", p!"ON_GOING"]

/-- `bglib/image/__init__.py:1-6`; attributes of values that are not modules, branches and calls are left out. -/
def m_bglib_image : Module where
  path := m!"bglib.image"
  package := true
  body := []
  later := []

/-- `bglib/image/PIL.py:1-121`; attributes of values that are not modules, branches and calls are left out. -/
def m_bglib_image_PIL : Module where
  path := m!"bglib.image.PIL"
  package := false
  body := [
    .bind n!"Image", .bind n!"ImageDraw", .bind n!"ImageFont", .imp [] p!"bglib.image.draw" none,
    .use p!"bglib.image.draw.Draw", .bind n!"Draw"]
  later := [
    p!"Image.new", p!"ImageDraw.Draw", p!"ImageFont.truetype", p!"Image.open", p!"Image.FLIP_TOP_BOTTOM"]

/-- `bglib/image/base.py:1-944`; attributes of values that are not modules, branches and calls are left out. -/
def m_bglib_image_base : Module where
  path := m!"bglib.image.base"
  package := false
  body := [
    .bind n!"os", .imp [] p!"bglib.image.css" none, .imp [] p!"bglib.model.constants" none,
    .frm [] p!"bglib.model.constants" [(n!"YOU", n!"YOU"), (n!"HIM", n!"HIM")],
    .bind n!"ElementFactory", .use p!"ElementFactory", .bind n!"Element", .bind n!"BaseAttribute",
    .bind n!"InheritMixIn", .use p!"BaseAttribute", .bind n!"IntAttribute", .use p!"IntAttribute",
    .bind n!"IntWithDefaultZeroAttribute", .bind n!"FloatAttribute", .use p!"InheritMixIn",
    .use p!"FloatAttribute", .bind n!"InheritFloatAttribute", .bind n!"InheritIntAttribute",
    .bind n!"StringAttribute", .use p!"StringAttribute", .bind n!"IdAttribute",
    .bind n!"DieStyleAttribute", .bind n!"ColorAttribute", .bind n!"URIAttribute",
    .bind n!"BoolAttribute", .use p!"BoolAttribute", .bind n!"FlipAttribute", .bind n!"FillAttribute",
    .bind n!"HideCountAttribute", .use p!"URIAttribute", .bind n!"FontAttribute",
    .bind n!"ParityAttribute", .bind n!"PlayerAttribute", .bind n!"InitialCubeString",
    .use p!"InheritIntAttribute", .use p!"FlipAttribute", .use p!"ColorAttribute",
    .use p!"FontAttribute", .use p!"InheritFloatAttribute", .bind n!"BaseElement", .use p!"BaseElement",
    .bind n!"Board", .use p!"Element.register", .use p!"Board", .bind n!"Match", .use p!"Match",
    .use p!"BaseElement.DTD_ATTLIST", .use p!"PlayerAttribute", .bind n!"Action", .use p!"Action",
    .bind n!"Length", .use p!"Length", .bind n!"Crawford", .use p!"Crawford", .bind n!"Score",
    .use p!"Score", .bind n!"Position", .use p!"Position", .bind n!"TopFrame", .use p!"TopFrame",
    .bind n!"BottomFrame", .use p!"BottomFrame", .bind n!"CubeHolder", .use p!"CubeHolder",
    .bind n!"Field", .use p!"Field", .use p!"DieStyleAttribute", .use p!"IdAttribute", .bind n!"Die",
    .use p!"Die", .use p!"InitialCubeString", .bind n!"Cube", .use p!"Cube",
    .use p!"IntWithDefaultZeroAttribute", .bind n!"Resign", .use p!"Resign", .use p!"FillAttribute",
    .bind n!"Home", .use p!"Home", .use p!"HideCountAttribute", .bind n!"Chequer", .use p!"Chequer",
    .bind n!"Bar", .use p!"Bar", .use p!"ParityAttribute", .bind n!"Point", .use p!"Point",
    .bind n!"ElementTree"]
  later := [
    p!"os.path.dirname", p!"os.path.join", p!"bglib.model.constants.PLAYER_STRING", p!"BaseElement",
    p!"BaseAttribute", p!"nane", p!"bglib.model.constants.RESIGN_STRINGS", p!"Element.dtd_url",
    p!"bglib.image.css.CSSParser", p!"YOU", p!"HIM", p!"Element", p!"bglib.model.constants.CENTER",
    p!"bglib.model.constants.RESIGN_TYPES", p!"CubeHolder", p!"TopFrame", p!"BottomFrame"]

/-- `bglib/image/css.py:1-223`; attributes of values that are not modules, branches and calls are left out. -/
def m_bglib_image_css : Module where
  path := m!"bglib.image.css"
  package := false
  body := [
    .bind n!"re", .bind n!"logging", .imp [] p!"bglib.image.base" none, .bind n!"Selector",
    .bind n!"Rule", .bind n!"Binder", .bind n!"CSSParser", .bind n!"load"]
  later := [
    p!"bglib.image.base.BaseAttribute", p!"logging.debug", p!"Rule", p!"bglib.image.base.ElementTree",
    p!"re.compile", p!"re.VERBOSE", p!"Selector", p!"bglib.image.css.CSSParser", p!"Binder"]

/-- `bglib/image/draw.py:1-94`; attributes of values that are not modules, branches and calls are left out. -/
def m_bglib_image_draw : Module where
  path := m!"bglib.image.draw"
  package := false
  body := [
    .imp [] p!"bglib.image.base" none, .imp [] p!"bglib.image.css" none, .bind n!"Draw"]
  later := [
    p!"bglib.image.base.ElementTree"]

/-- `bglib/image/resource/__init__.py:1-6`; attributes of values that are not modules, branches and calls are left out. -/
def m_bglib_image_resource : Module where
  path := m!"bglib.image.resource"
  package := true
  body := []
  later := []

/-- `bglib/image/resource/deutsche.py:1-35`; attributes of values that are not modules, branches and calls are left out. -/
def m_bglib_image_resource_deutsche : Module where
  path := m!"bglib.image.resource.deutsche"
  package := false
  body := [
    .bind n!"re", .bind n!"os", .imp [] p!"bglib.image.PIL" none, .imp [] p!"bglib.image.css" none,
    .frm [] p!"bglib.image.theme" [(n!"themata", n!"themata")], .bind n!"mypath", .use p!"mypath",
    .bind n!"__moduleid_deps__", .use p!"os.path.join", .use p!"themata", .bind n!"testdatapath",
    .use p!"bglib.image.css.load", .bind n!"css", .use p!"bglib.image.PIL.Draw", .use p!"css",
    .bind n!"draw"]
  later := []

/-- `bglib/image/resource/flower.py:1-33`; attributes of values that are not modules, branches and calls are left out. -/
def m_bglib_image_resource_flower : Module where
  path := m!"bglib.image.resource.flower"
  package := false
  body := [
    .bind n!"re", .bind n!"os", .imp [] p!"bglib.image.PIL" none, .imp [] p!"bglib.image.css" none,
    .frm [] p!"bglib.image.theme" [(n!"themata", n!"themata")], .bind n!"mypath", .use p!"mypath",
    .bind n!"__moduleid_deps__", .use p!"os.path.join", .use p!"themata", .bind n!"testdatapath",
    .use p!"bglib.image.css.load", .bind n!"css", .use p!"bglib.image.PIL.Draw", .use p!"css",
    .bind n!"draw"]
  later := []

/-- `bglib/image/resource/kotobuki.py:1-33`; attributes of values that are not modules, branches and calls are left out. -/
def m_bglib_image_resource_kotobuki : Module where
  path := m!"bglib.image.resource.kotobuki"
  package := false
  body := [
    .bind n!"re", .bind n!"os", .imp [] p!"bglib.image.PIL" none, .imp [] p!"bglib.image.css" none,
    .frm [] p!"bglib.image.theme" [(n!"themata", n!"themata")], .bind n!"mypath", .use p!"mypath",
    .bind n!"__moduleid_deps__", .use p!"os.path.join", .use p!"themata", .bind n!"testdatapath",
    .use p!"bglib.image.css.load", .bind n!"css", .use p!"bglib.image.PIL.Draw", .use p!"css",
    .bind n!"draw"]
  later := []

/-- `bglib/image/resource/matrix.py:1-32`; attributes of values that are not modules, branches and calls are left out. -/
def m_bglib_image_resource_matrix : Module where
  path := m!"bglib.image.resource.matrix"
  package := false
  body := [
    .bind n!"re", .bind n!"os", .imp [] p!"bglib.image.PIL" none, .imp [] p!"bglib.image.css" none,
    .frm [] p!"bglib.image.theme" [(n!"themata", n!"themata")], .bind n!"mypath", .use p!"mypath",
    .bind n!"__moduleid_deps__", .use p!"os.path.join", .use p!"themata", .bind n!"testdatapath",
    .use p!"bglib.image.css.load", .bind n!"css", .use p!"bglib.image.PIL.Draw", .use p!"css",
    .bind n!"draw"]
  later := []

/-- `bglib/image/resource/minimal.py:1-34`; attributes of values that are not modules, branches and calls are left out. -/
def m_bglib_image_resource_minimal : Module where
  path := m!"bglib.image.resource.minimal"
  package := false
  body := [
    .bind n!"re", .bind n!"os", .imp [] p!"bglib.image.PIL" none, .imp [] p!"bglib.image.css" none,
    .frm [] p!"bglib.image.theme" [(n!"themata", n!"themata")], .bind n!"mypath", .use p!"mypath",
    .bind n!"__moduleid_deps__", .use p!"os.path.join", .use p!"themata", .bind n!"testdatapath",
    .use p!"bglib.image.css.load", .bind n!"css", .use p!"bglib.image.PIL.Draw", .use p!"css",
    .bind n!"draw"]
  later := []

/-- `bglib/image/resource/nature.py:1-34`; attributes of values that are not modules, branches and calls are left out. -/
def m_bglib_image_resource_nature : Module where
  path := m!"bglib.image.resource.nature"
  package := false
  body := [
    .bind n!"re", .bind n!"os", .imp [] p!"bglib.image.PIL" none, .imp [] p!"bglib.image.css" none,
    .frm [] p!"bglib.image.theme" [(n!"themata", n!"themata")], .bind n!"mypath", .use p!"mypath",
    .bind n!"__moduleid_deps__", .use p!"os.path.join", .use p!"themata", .bind n!"testdatapath",
    .use p!"bglib.image.css.load", .bind n!"css", .use p!"bglib.image.PIL.Draw", .use p!"css",
    .bind n!"draw"]
  later := []

/-- `bglib/image/resource/neon.py:1-33`; attributes of values that are not modules, branches and calls are left out. -/
def m_bglib_image_resource_neon : Module where
  path := m!"bglib.image.resource.neon"
  package := false
  body := [
    .bind n!"re", .bind n!"os", .imp [] p!"bglib.image.PIL" none, .imp [] p!"bglib.image.css" none,
    .frm [] p!"bglib.image.theme" [(n!"themata", n!"themata")], .bind n!"mypath", .use p!"mypath",
    .bind n!"__moduleid_deps__", .use p!"os.path.join", .use p!"themata", .bind n!"testdatapath",
    .use p!"bglib.image.css.load", .bind n!"css", .use p!"bglib.image.PIL.Draw", .use p!"css",
    .bind n!"draw"]
  later := []

/-- `bglib/image/resource/safari.py:1-37`; attributes of values that are not modules, branches and calls are left out. -/
def m_bglib_image_resource_safari : Module where
  path := m!"bglib.image.resource.safari"
  package := false
  body := [
    .bind n!"re", .bind n!"os", .imp [] p!"bglib.image.PIL" none, .imp [] p!"bglib.image.css" none,
    .frm [] p!"bglib.image.theme" [(n!"themata", n!"themata")], .bind n!"mypath", .use p!"mypath",
    .bind n!"__moduleid_deps__", .use p!"os.path.join", .use p!"themata", .bind n!"testdatapath",
    .use p!"bglib.image.css.load", .bind n!"css", .use p!"bglib.image.PIL.Draw", .use p!"css",
    .bind n!"draw"]
  later := []

/-- `bglib/image/testwriter.py:1-281`; attributes of values that are not modules, branches and calls are left out. -/
def m_bglib_image_testwriter : Module where
  path := m!"bglib.image.testwriter"
  package := false
  body := [
    .bind n!"string", .bind n!"StringIO", .bind n!"unittest", .bind n!"tests", .bind n!"Writer",
    .use p!"unittest.TestCase", .bind n!"WriterTest"]
  later := [
    p!"string.Template", p!"tests.items", p!"Writer", p!"StringIO.StringIO"]

/-- `bglib/image/theme.py:1-11`; attributes of values that are not modules, branches and calls are left out. -/
def m_bglib_image_theme : Module where
  path := m!"bglib.image.theme"
  package := false
  body := [
    .bind n!"os", .use p!"os.path.join", .use p!"os.path.dirname", .bind n!"themata"]
  later := []

/-- `bglib/image/wx2.py:1-127`; attributes of values that are not modules, branches and calls are left out. -/
def m_bglib_image_wx2 : Module where
  path := m!"bglib.image.wx2"
  package := false
  body := [
    .bind n!"wx", .imp [] p!"bglib.image.draw" none, .use p!"bglib.image.draw.Draw", .bind n!"Draw"]
  later := [
    p!"wx.EmptyBitmap", p!"wx.MemoryDC", p!"ImageFont.truetype", p!"wx.BITMAP_TYPE_JPEG",
    p!"wx.BITMAP_TYPE_PNG", p!"wx.Image", p!"Image.FLIP_TOP_BOTTOM"]

/-- `bglib/image/wxpython.py:1-210`; attributes of values that are not modules, branches and calls are left out. -/
def m_bglib_image_wxpython : Module where
  path := m!"bglib.image.wxpython"
  package := false
  body := [
    .bind n!"wx", .imp [] p!"bglib.image.PIL" none, .bind n!"Region", .bind n!"Context",
    .use p!"bglib.image.context.context_factory.register", .use p!"Context"]
  later := [
    p!"wx.Rect", p!"wx.EmptyBitmap", p!"wx.Image", p!"wx.MemoryDC",
    p!"bglib.image.PIL.Context.__init__", p!"wx.BITMAP_TYPE_JPEG", p!"wx.BITMAP_TYPE_PNG", p!"Region",
    p!"bglib.image.PIL.Context.draw_your_point_at", p!"bglib.image.PIL.Context.draw_his_point_at",
    p!"bglib.image.PIL.Context.draw_empty_point_at", p!"bglib.image.PIL.Context.draw_your_bar",
    p!"bglib.image.PIL.Context.draw_his_bar", p!"bglib.image.PIL.Context.draw_center_bar",
    p!"bglib.image.PIL.Context.draw_your_home", p!"bglib.image.PIL.Context.draw_his_home",
    p!"bglib.image.PIL.Context.draw_cubeholder", p!"bglib.image.PIL.Context.draw_your_cube",
    p!"bglib.image.PIL.Context.draw_his_cube", p!"bglib.image.PIL.Context.draw_center_cube",
    p!"bglib.image.PIL.Context.draw_your_empty_field", p!"bglib.image.PIL.Context.draw_his_empty_field",
    p!"bglib.image.PIL.Context.draw_you_to_play", p!"bglib.image.PIL.Context.draw_him_to_play",
    p!"wx.EmptyImage", p!"bglib.image.PIL.Context.draw_frame",
    p!"bglib.image.PIL.Context.draw_your_score", p!"bglib.image.PIL.Context.draw_his_score"]

/-- `bglib/model/__init__.py:1-24`; attributes of values that are not modules, branches and calls are left out. -/
def m_bglib_model : Module where
  path := m!"bglib.model"
  package := true
  body := [
    .frm [] p!"bglib.model.board" [(n!"Board", n!"Board")],
    .frm [] p!"bglib.model.boardeditor" [(n!"BoardEditor", n!"BoardEditor")],
    .frm [] p!"bglib.model.move" [(n!"AvailableToPlay", n!"AvailableToPlay")],
    .frm [] p!"bglib.model.move" [(n!"PartialMove", n!"PartialMove")],
    .frm [] p!"bglib.model.move" [(n!"Move", n!"Move")],
    .frm [] p!"bglib.model.move" [(n!"MoveFactory", n!"MoveFactory")],
    .frm [] p!"bglib.model" [(n!"util", n!"util")],
    .frm [] p!"bglib.model" [(n!"constants", n!"constants")], .bind n!"__all__",
    .all [n!"Board", n!"BoardEditor", n!"AvailableToPlay", n!"PartialMove", n!"Move", n!"MoveFactory", n!"util", n!"constants"]]
  later := []

/-- `bglib/model/board.py:1-219`; attributes of values that are not modules, branches and calls are left out. -/
def m_bglib_model_board : Module where
  path := m!"bglib.model.board"
  package := false
  body := [
    .star [] p!"bglib.model", .star [] p!"bglib.model.constants", .imp m!"bglib.model" p!"util" none,
    .use p!"INITIAL_POSITION", .use p!"CENTER", .use p!"YOU", .use p!"NOT_STARTED",
    .use p!"RESIGN_NONE", .bind n!"AbstractBoard", .use p!"AbstractBoard",
    .use p!"AbstractBoard.defaults.keys", .bind n!"Board"]
  later := [
    p!"AbstractBoard.defaults", p!"YOU", p!"HIM", p!"POINTS", p!"util.flip_point", p!"BAR",
    p!"NONE_BEAROFF_POINTS", p!"ON_GOING", p!"RESIGN_NONE", p!"MONEY_GAME", p!"RESIGN_SINGLE",
    p!"RESIGN_GAMMON", p!"RESIGN_BACKGAMMON"]

/-- `bglib/model/boardeditor.py:1-148`; attributes of values that are not modules, branches and calls are left out. -/
def m_bglib_model_boardeditor : Module where
  path := m!"bglib.model.boardeditor"
  package := false
  body := [
    .star [] p!"bglib.model", .star [] p!"bglib.model.constants", .imp m!"bglib.model" p!"util" none,
    .frm [] p!"bglib.model.board" [(n!"AbstractBoard", n!"AbstractBoard")], .use p!"AbstractBoard",
    .bind n!"BoardEditor"]
  later := [
    p!"Board", p!"AbstractBoard.defaults", p!"BoardEditor", p!"YOU", p!"HIM", p!"CENTER", p!"OFF",
    p!"util.flip_point", p!"BAR", p!"util.get_opp", p!"DOUBLED_OUT", p!"RESIGN_SINGLE",
    p!"RESIGN_GAMMON", p!"RESIGN_BACKGAMMON", p!"RESIGNED", p!"RESIGN_NONE"]

/-- `bglib/model/constants.py:1-48`; attributes of values that are not modules, branches and calls are left out. -/
def m_bglib_model_constants : Module where
  path := m!"bglib.model.constants"
  package := false
  body := [
    .bind n!"YOU", .bind n!"HIM", .bind n!"CENTER", .bind n!"PLAYER_STRING", .bind n!"OWNER_STRING",
    .bind n!"OFF", .bind n!"BAR", .bind n!"POINTS", .bind n!"NONE_BEAROFF_POINTS",
    .bind n!"POINTS_STRINGS", .bind n!"NOT_STARTED", .bind n!"ON_GOING", .bind n!"FINISHED",
    .bind n!"RESIGNED", .bind n!"DOUBLED_OUT", .bind n!"MONEY_GAME", .bind n!"RESIGN_NONE",
    .bind n!"RESIGN_SINGLE", .bind n!"RESIGN_GAMMON", .bind n!"RESIGN_BACKGAMMON",
    .use p!"RESIGN_SINGLE", .use p!"RESIGN_GAMMON", .use p!"RESIGN_BACKGAMMON", .bind n!"RESIGN_TYPES",
    .bind n!"RESIGN_STRINGS", .bind n!"INITIAL_POSITION", .bind n!"NO_DOUBLE", .bind n!"DOUBLE_TAKE",
    .bind n!"DOUBLE_PASS", .bind n!"TOO_GOOD_TO_DOUBLE", .use p!"NO_DOUBLE", .use p!"DOUBLE_TAKE",
    .use p!"DOUBLE_PASS", .use p!"TOO_GOOD_TO_DOUBLE", .bind n!"CUBEACTION_TYPES",
    .bind n!"CUBEACTION_STRINGS"]
  later := []

/-- `bglib/model/model.py:1-26`; attributes of values that are not modules, branches and calls are left out. -/
def m_bglib_model_model : Module where
  path := m!"bglib.model.model"
  package := false
  body := [
    .bind n!"game", .bind n!"match"]
  later := []

/-- `bglib/model/move.py:1-448`; attributes of values that are not modules, branches and calls are left out. -/
def m_bglib_model_move : Module where
  path := m!"bglib.model.move"
  package := false
  body := [
    .star [] p!"bglib.model.constants", .frm [] p!"bglib.model" [(n!"util", n!"util")],
    .star [] p!"bglib.model", .bind n!"AvailableToPlay", .bind n!"PartialMove", .bind n!"Move",
    .bind n!"MoveFactory"]
  later := [
    p!"AvailableToPlay", p!"util.move_ntop", p!"PartialMove", p!"Move", p!"util.move_pton", p!"POINTS",
    p!"MoveFactory", p!"OFF"]

/-- `bglib/model/util.py:1-71`; attributes of values that are not modules, branches and calls are left out. -/
def m_bglib_model_util : Module where
  path := m!"bglib.model.util"
  package := false
  body := [
    .star [] p!"bglib.model.constants", .bind n!"flip_point", .bind n!"position_pton",
    .bind n!"position_ntop", .bind n!"move_ntop", .bind n!"move_pton", .bind n!"get_opp"]
  later := [
    p!"YOU", p!"OWNER_STRING", p!"HIM"]

/-- `bglib/protocol/__init__.py:1-6`; attributes of values that are not modules, branches and calls are left out. -/
def m_bglib_protocol : Module where
  path := m!"bglib.protocol"
  package := true
  body := []
  later := []

/-- `bglib/protocol/fibs.py:1-476`; attributes of values that are not modules, branches and calls are left out. -/
def m_bglib_protocol_fibs : Module where
  path := m!"bglib.protocol.fibs"
  package := false
  body := [
    .bind n!"logging", .bind n!"re", .bind n!"CLIP_VERSION", .bind n!"CookieMonster", .bind n!"State",
    .use p!"State", .bind n!"RunState", .bind n!"LoginState", .bind n!"MOTDState", .bind n!"LogoutState"]
  later := [
    p!"LoginState", p!"re.compile", p!"re.error", p!"logging.exception", p!"re.match", p!"MOTDState",
    p!"RunState"]

/-- `bglib/protocol/networkplayer.py:1-239`; attributes of values that are not modules, branches and calls are left out. -/
def m_bglib_protocol_networkplayer : Module where
  path := m!"bglib.protocol.networkplayer"
  package := false
  body := [
    .bind n!"socket", .bind n!"select", .bind n!"time", .bind n!"os", .bind n!"wx",
    .use p!"wx.TextCtrl", .bind n!"StreamWindow", .use p!"wx.Panel", .bind n!"FileSelectionForm",
    .bind n!"ScenarioWindow", .use p!"wx.Frame", .bind n!"AppFrame", .use p!"wx.App", .bind n!"MyApp",
    .bind n!"Scenario", .use p!"MyApp", .bind n!"app", .use p!"AppFrame", .bind n!"frame",
    .use p!"frame.Show", .use p!"app.MainLoop"]
  later := [
    p!"wx.TextCtrl.__init__", p!"wx.TE_MULTILINE", p!"wx.TE_READONLY", p!"wx.VSCROLL",
    p!"wx.Panel.__init__", p!"wx.BoxSizer", p!"wx.HORIZONTAL", p!"wx.TextCtrl", p!"wx.EXPAND",
    p!"wx.Button", p!"wx.ID_OPEN", p!"wx.EVT_BUTTON", p!"wx.FileDialog", p!"os.getcwd", p!"wx.OPEN",
    p!"wx.ID_OK", p!"wx.ID_STOP", p!"wx.ID_FORWARD", p!"FileSelectionForm", p!"wx.Frame.__init__",
    p!"wx.VERTICAL", p!"StreamWindow", p!"ScenarioWindow", p!"select.poll", p!"wx.Timer",
    p!"wx.EVT_TIMER", p!"socket.socket", p!"select.POLLIN", p!"select.POLLOUT", p!"f.readline",
    p!"wx.App.__init__", p!"Scenario", p!"time.time", p!"re.compile"]

/-- `bglib/protocol/session.py:1-140`; attributes of values that are not modules, branches and calls are left out. -/
def m_bglib_protocol_session : Module where
  path := m!"bglib.protocol.session"
  package := false
  body := [
    .bind n!"socket", .bind n!"os", .bind n!"time", .bind n!"thread", .bind n!"threading",
    .bind n!"logging", .bind n!"telnetlib", .bind n!"Template", .imp [] p!"bglib.protocol.fibs" none,
    .bind n!"Timeout", .bind n!"CRLF", .bind n!"synchronized_with", .use p!"telnetlib.Telnet",
    .use p!"threading.RLock", .use p!"synchronized_with", .bind n!"Transport", .bind n!"Subscriber",
    .use p!"Transport", .use p!"Transport.lock", .bind n!"Session"]
  later := [
    p!"telnetlib.Telnet.__init__", p!"threading.Event", p!"telnetlib.Telnet.open",
    p!"thread.start_new_thread", p!"telnetlib.Telnet.close", p!"logging.debug", p!"CRLF",
    p!"threading.Condition", p!"Transport.__init__", p!"bglib.protocol.fibs.CookieMonster",
    p!"socket.error", p!"logging.exception", p!"thread.exit", p!"Subscriber"]

/-- `bglib/record/__init__.py:1-7`; attributes of values that are not modules, branches and calls are left out. -/
def m_bglib_record : Module where
  path := m!"bglib.record"
  package := true
  body := []
  later := []

/-- `bglib/record/gnubg.py:1-81`; attributes of values that are not modules, branches and calls are left out. -/
def m_bglib_record_gnubg : Module where
  path := m!"bglib.record.gnubg"
  package := false
  body := [
    .star [] p!"bglib.model", .star [] p!"bglib.model.constants", .imp [] p!"bglib.encoding" none,
    .frm [] p!"bglib.encoding.gnubgid" [(n!"decode", n!"decode"), (n!"encode", n!"encode")],
    .bind n!"Tracer"]
  later := [
    p!"Board", p!"BoardEditor", p!"decode", p!"YOU", p!"HIM", p!"bglib.model.board.board"]

/-- `bglib/record/snowietxt.py:1-248`; attributes of values that are not modules, branches and calls are left out. -/
def m_bglib_record_snowietxt : Module where
  path := m!"bglib.record.snowietxt"
  package := false
  body := [
    .bind n!"__all__", .all [n!"Validator"], .bind n!"sha", .bind n!"decorator", .bind n!"LineParser",
    .bind n!"DEBUG", .bind n!"ACCEPTABLES", .bind n!"statevalidate", .use p!"LineParser",
    .use p!"statevalidate", .bind n!"LineValidator", .bind n!"Validator", .bind n!"chop"]
  later := [
    p!"ACCEPTABLES", p!"DEBUG", p!"decorator", p!"sha.new", p!"LineValidator"]

/-- `bglib/stat/__init__.py:1-6`; attributes of values that are not modules, branches and calls are left out. -/
def m_bglib_stat : Module where
  path := m!"bglib.stat"
  package := true
  body := []
  later := []

/-- `bglib/stat/rating.py:1-27`; attributes of values that are not modules, branches and calls are left out. -/
def m_bglib_stat_rating : Module where
  path := m!"bglib.stat.rating"
  package := false
  body := [
    .bind n!"math", .bind n!"upset_chance", .bind n!"winning_chance", .bind n!"gain_on_win"]
  later := [
    p!"math.sqrt", p!"upset_chance"]

/-- `bglib/stat/tourney.py:1-113`; attributes of values that are not modules, branches and calls are left out. -/
def m_bglib_stat_tourney : Module where
  path := m!"bglib.stat.tourney"
  package := false
  body := [
    .bind n!"random",
    .frm [] p!"bglib.stat.rating" [(n!"upset_chance", n!"upset_chance"), (n!"winning_chance", n!"winning_chance")],
    .bind n!"tourney_chance", .bind n!"prize_handicap", .bind n!"entryfee_handicap", .bind n!"Player",
    .bind n!"Tourney"]
  later := [
    p!"upset_chance", p!"tourney_chance", p!"Player", p!"random.shuffle", p!"winning_chance",
    p!"random.random"]

/-- All modules of the library. -/
def library : Library := [
    m_bglib, m_bglib_doc, m_bglib_doc_bgwiki, m_bglib_doc_doctree, m_bglib_doc_fuzzing,
    m_bglib_doc_html, m_bglib_doc_macro, m_bglib_doc_mkdn, m_bglib_doc_mock, m_bglib_doc_rst,
    m_bglib_doc_viewer_type, m_bglib_encoding, m_bglib_encoding_FIBS, m_bglib_encoding_bearoff,
    m_bglib_encoding_bearoff_gnubgdb, m_bglib_encoding_bearoff_nori, m_bglib_encoding_bearoff_t2k,
    m_bglib_encoding_bearoff_trice, m_bglib_encoding_dbbyte, m_bglib_encoding_gnubgid,
    m_bglib_encoding_xgid, m_bglib_image, m_bglib_image_PIL, m_bglib_image_base, m_bglib_image_css,
    m_bglib_image_draw, m_bglib_image_resource, m_bglib_image_resource_deutsche,
    m_bglib_image_resource_flower, m_bglib_image_resource_kotobuki, m_bglib_image_resource_matrix,
    m_bglib_image_resource_minimal, m_bglib_image_resource_nature, m_bglib_image_resource_neon,
    m_bglib_image_resource_safari, m_bglib_image_testwriter, m_bglib_image_theme, m_bglib_image_wx2,
    m_bglib_image_wxpython, m_bglib_model, m_bglib_model_board, m_bglib_model_boardeditor,
    m_bglib_model_constants, m_bglib_model_model, m_bglib_model_move, m_bglib_model_util,
    m_bglib_protocol, m_bglib_protocol_fibs, m_bglib_protocol_networkplayer, m_bglib_protocol_session,
    m_bglib_record, m_bglib_record_gnubg, m_bglib_record_snowietxt, m_bglib_stat, m_bglib_stat_rating,
    m_bglib_stat_tourney]

end Bglib.Import
