import Verif.Lemmas.ImportChecks.Base
/-
The checks of the modules for pictures.
-/
namespace Bglib.Import
set_option maxRecDepth 100000

theorem checked_bglib_image : Checked m_bglib_image := by decide +kernel
theorem checked_bglib_image_PIL : Checked m_bglib_image_PIL := by decide +kernel
theorem checked_bglib_image_base : Checked m_bglib_image_base := by decide +kernel
theorem checked_bglib_image_css : Checked m_bglib_image_css := by decide +kernel
theorem checked_bglib_image_draw : Checked m_bglib_image_draw := by decide +kernel
theorem checked_bglib_image_resource : Checked m_bglib_image_resource := by decide +kernel
theorem checked_bglib_image_testwriter : Checked m_bglib_image_testwriter := by decide +kernel
theorem checked_bglib_image_theme : Checked m_bglib_image_theme := by decide +kernel
theorem checked_bglib_image_wx2 : Checked m_bglib_image_wx2 := by decide +kernel
theorem checked_bglib_image_wxpython : Checked m_bglib_image_wxpython := by decide +kernel

end Bglib.Import
