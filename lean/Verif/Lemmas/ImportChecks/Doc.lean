import Verif.Lemmas.ImportChecks.Base
/-
The checks of the modules for documents.
-/
namespace Bglib.Import
set_option maxRecDepth 100000

theorem checked_bglib_doc : Checked m_bglib_doc := by decide +kernel
theorem checked_bglib_doc_bgwiki : Checked m_bglib_doc_bgwiki := by decide +kernel
theorem checked_bglib_doc_doctree : Checked m_bglib_doc_doctree := by decide +kernel
theorem checked_bglib_doc_fuzzing : Checked m_bglib_doc_fuzzing := by decide +kernel
theorem checked_bglib_doc_html : Checked m_bglib_doc_html := by decide +kernel
theorem checked_bglib_doc_macro : Checked m_bglib_doc_macro := by decide +kernel
theorem checked_bglib_doc_mkdn : Checked m_bglib_doc_mkdn := by decide +kernel
theorem checked_bglib_doc_mock : Checked m_bglib_doc_mock := by decide +kernel
theorem checked_bglib_doc_rst : Checked m_bglib_doc_rst := by decide +kernel
theorem checked_bglib_doc_viewer_type : Checked m_bglib_doc_viewer_type := by decide +kernel

end Bglib.Import
