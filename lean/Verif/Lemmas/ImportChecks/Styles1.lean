import Verif.Lemmas.ImportChecks.Base
/-
The checks of the first four styles.
-/
namespace Bglib.Import
set_option maxRecDepth 100000

theorem checked_bglib_image_resource_deutsche : Checked m_bglib_image_resource_deutsche := by decide +kernel
theorem checked_bglib_image_resource_flower : Checked m_bglib_image_resource_flower := by decide +kernel
theorem checked_bglib_image_resource_kotobuki : Checked m_bglib_image_resource_kotobuki := by decide +kernel
theorem checked_bglib_image_resource_matrix : Checked m_bglib_image_resource_matrix := by decide +kernel

end Bglib.Import
