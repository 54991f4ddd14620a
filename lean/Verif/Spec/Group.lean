/-
What the five representations of a point in edwards25519.go:622-650 mean.
-/
import Verif.Lemmas.Edwards
import Verif.Model.Group

namespace Verif.Ed

/-- The order of the base point (RFC 8032, 5.1): the number called `order` at edwards25519.go:1776. -/
def groupOrder : Nat := 2 ^ 252 + 27742317777372353535851937790883648493

/-- `(X : Y : Z)` with x = X/Z, y = Y/Z. -/
structure Proj.Is (p : Proj) (P : Point) : Prop where
  nz : p.Z.val ≠ 0
  x : p.X.val / p.Z.val = P.x
  y : p.Y.val / p.Z.val = P.y

/-- `(X : Y : Z : T)` with x = X/Z, y = Y/Z, XY = ZT. -/
structure Ext.Is (p : Ext) (P : Point) : Prop where
  nz : p.Z.val ≠ 0
  x : p.X.val / p.Z.val = P.x
  y : p.Y.val / p.Z.val = P.y
  t : p.X.val * p.Y.val = p.Z.val * p.T.val

/-- `((X : Z), (Y : T))` with x = X/Z, y = Y/T. -/
structure Comp.Is (p : Comp) (P : Point) : Prop where
  nz : p.Z.val ≠ 0
  nt : p.T.val ≠ 0
  x : p.X.val / p.Z.val = P.x
  y : p.Y.val / p.T.val = P.y

/-- `(y + x, y - x, 2dxy)`. -/
structure Pre.Is (p : Pre) (P : Point) : Prop where
  plus : p.yPlusX.val = P.y + P.x
  minus : p.yMinusX.val = P.y - P.x
  xy : p.xy2d.val = 2 * d * P.x * P.y

/-- `(Y + X, Y - X, Z, 2dT)` of an extended element. -/
structure Cached.Is (p : Cached) (P : Point) : Prop where
  nz : p.Z.val ≠ 0
  plus : p.yPlusX.val / p.Z.val = P.y + P.x
  minus : p.yMinusX.val / p.Z.val = P.y - P.x
  xy : p.T2d.val / p.Z.val = 2 * d * P.x * P.y

/-! Limb bounds: with them no operation overflows. -/

/-- Bounds of X for a decoded element (`FromBytes` negates a reduced value); of Y and Z as `FeMul` leaves them. -/
structure Proj.Bounded (p : Proj) : Prop where
  X : p.X.Within (2 ^ 26) (2 ^ 25)
  Y : p.Y.Within (2 ^ 25) (2 ^ 24 + 2 ^ 16)
  Z : p.Z.Within (2 ^ 25) (2 ^ 24 + 2 ^ 16)

structure Ext.Bounded (p : Ext) : Prop where
  X : p.X.Within (2 ^ 26) (2 ^ 25)
  Y : p.Y.Within (2 ^ 25) (2 ^ 24 + 2 ^ 16)
  Z : p.Z.Within (2 ^ 25) (2 ^ 24 + 2 ^ 16)
  T : p.T.Within (2 ^ 25) (2 ^ 24 + 2 ^ 16)

/-- Sums of up to three reduced elements. -/
structure Comp.Bounded (p : Comp) : Prop where
  X : p.X.Within (3 * 2 ^ 25) (3 * (2 ^ 24 + 2 ^ 16))
  Y : p.Y.Within (3 * 2 ^ 25) (3 * (2 ^ 24 + 2 ^ 16))
  Z : p.Z.Within (3 * 2 ^ 25) (3 * (2 ^ 24 + 2 ^ 16))
  T : p.T.Within (3 * 2 ^ 25) (3 * (2 ^ 24 + 2 ^ 16))

structure Pre.Bounded (p : Pre) : Prop where
  plus : p.yPlusX.Within (2 ^ 25) (2 ^ 24 + 2 ^ 16)
  minus : p.yMinusX.Within (2 ^ 25) (2 ^ 24 + 2 ^ 16)
  xy : p.xy2d.Within (2 ^ 25) (2 ^ 24 + 2 ^ 16)

structure Cached.Bounded (p : Cached) : Prop where
  plus : p.yPlusX.Within (3 * 2 ^ 25) (3 * (2 ^ 24 + 2 ^ 16))
  minus : p.yMinusX.Within (3 * 2 ^ 25) (3 * (2 ^ 24 + 2 ^ 16))
  Z : p.Z.Within (2 ^ 25) (2 ^ 24 + 2 ^ 16)
  xy : p.T2d.Within (2 ^ 25) (2 ^ 24 + 2 ^ 16)

end Verif.Ed
