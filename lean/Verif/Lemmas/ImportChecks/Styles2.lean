import Verif.Lemmas.ImportChecks.Base
/-
The checks of the other styles.
-/
namespace Bglib.Import
set_option maxRecDepth 100000

theorem checked_bglib_image_resource_minimal : Checked m_bglib_image_resource_minimal := by decide +kernel
theorem checked_bglib_image_resource_nature : Checked m_bglib_image_resource_nature := by decide +kernel
theorem checked_bglib_image_resource_neon : Checked m_bglib_image_resource_neon := by decide +kernel
theorem checked_bglib_image_resource_safari : Checked m_bglib_image_resource_safari := by decide +kernel

end Bglib.Import
