import Verif.Lemmas.ImportChecks.Styles1
import Verif.Lemmas.ImportChecks.Styles2
import Verif.Lemmas.ImportChecks.Image
import Verif.Lemmas.ImportChecks.Doc
import Verif.Lemmas.ImportChecks.Other
/-
The checks of all modules.
-/
namespace Bglib.Import

theorem checked_all : ∀ m ∈ library, Checked m := by
  simp only [library, List.forall_mem_cons]
  exact ⟨checked_bglib, checked_bglib_doc, checked_bglib_doc_bgwiki, checked_bglib_doc_doctree,
    checked_bglib_doc_fuzzing, checked_bglib_doc_html, checked_bglib_doc_macro,
    checked_bglib_doc_mkdn, checked_bglib_doc_mock, checked_bglib_doc_rst,
    checked_bglib_doc_viewer_type, checked_bglib_encoding, checked_bglib_encoding_FIBS,
    checked_bglib_encoding_bearoff, checked_bglib_encoding_bearoff_gnubgdb,
    checked_bglib_encoding_bearoff_nori, checked_bglib_encoding_bearoff_t2k,
    checked_bglib_encoding_bearoff_trice, checked_bglib_encoding_dbbyte,
    checked_bglib_encoding_gnubgid, checked_bglib_encoding_xgid, checked_bglib_image,
    checked_bglib_image_PIL, checked_bglib_image_base, checked_bglib_image_css,
    checked_bglib_image_draw, checked_bglib_image_resource, checked_bglib_image_resource_deutsche,
    checked_bglib_image_resource_flower, checked_bglib_image_resource_kotobuki,
    checked_bglib_image_resource_matrix, checked_bglib_image_resource_minimal,
    checked_bglib_image_resource_nature, checked_bglib_image_resource_neon,
    checked_bglib_image_resource_safari, checked_bglib_image_testwriter, checked_bglib_image_theme,
    checked_bglib_image_wx2, checked_bglib_image_wxpython, checked_bglib_model,
    checked_bglib_model_board, checked_bglib_model_boardeditor, checked_bglib_model_constants,
    checked_bglib_model_model, checked_bglib_model_move, checked_bglib_model_util,
    checked_bglib_protocol, checked_bglib_protocol_fibs, checked_bglib_protocol_networkplayer,
    checked_bglib_protocol_session, checked_bglib_record, checked_bglib_record_gnubg,
    checked_bglib_record_snowietxt, checked_bglib_stat, checked_bglib_stat_rating,
    checked_bglib_stat_tourney,
    fun _ h => by cases h⟩

end Bglib.Import
