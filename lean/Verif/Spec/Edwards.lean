/-
The addition law of RFC 8032 section 5.1.4 (affine form) on the points of the curve.
-/
import Verif.Spec.Curve

namespace Verif.Ed

/-- x-coordinate of the sum of (x1, y1) and (x2, y2). -/
def sumX (x1 y1 x2 y2 : F) : F := (x1 * y2 + x2 * y1) / (1 + d * x1 * x2 * y1 * y2)

/-- y-coordinate of the sum of (x1, y1) and (x2, y2). -/
def sumY (x1 y1 x2 y2 : F) : F := (y1 * y2 + x1 * x2) / (1 - d * x1 * x2 * y1 * y2)

/-- A point of the curve. -/
@[ext] structure Point where
  x : F
  y : F
  on : OnCurve x y

end Verif.Ed
