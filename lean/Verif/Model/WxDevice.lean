import Verif.Model.Device
/-
Model of the device for windows, `bglib/image/wx2.py`.
-/
namespace Bglib.Img
open Bglib

/-- One operation, wx2.py:41-119.  Each begins with `self.calc_mag` (`draw_ellipse` after adding up corners), which is a
method of elements (base.py:208) and not of `Draw`. -/
def wxOp (_ : Op) : Py Unit := .error .attributeError

/-- All operations. -/
def wxAll : List Op → Py Unit
  | [] => .ok ()
  | o :: os => match wxOp o with
    | .error e => .error e
    | .ok () => wxAll os

/-- `draw`, draw.py:35-47, on this device.  As with `drawOn`, the exception of the drawing comes first. -/
def drawWx (rules : List Rule) (size : Int × Int) (b : Board) : Py Unit :=
  match opsSized rules size b with
  | .error e => .error e
  | .ok ops => wxAll ops

end Bglib.Img
