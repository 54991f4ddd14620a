/-
Model of the group element types of signify/internal/edwards25519/edwards25519.go.
-/
import Verif.Model.Field

namespace Verif.Ed

/-- edwards25519.go:636-638 `ExtendedGroupElement`. -/
@[ext] structure Ext where
  (X Y Z T : Fe)
  deriving DecidableEq, Repr

/-- edwards25519.go:718-762 `ExtendedGroupElement.FromBytes`: `none` for false. FeIsNonZero, FeToBytes and FeIsNegative
overwrite their argument by its reduced form; this is visible for `p.X` (lines 750, 756). The copy of the bytes
into `tmp2` (lines 751-753) is dead code. -/
def extFromBytes (s : Arr 32) : Option Ext :=
  let Y := feFromBytes s
  let Z := feOne
  let u := feSquare Y
  let v := feMul u feD
  let u := feSub u Z
  let v := feAdd v Z
  let v3 := feSquare v
  let v3 := feMul v3 v
  let X := feSquare v3
  let X := feMul X v
  let X := feMul X u
  let X := fePow22523 X
  let X := feMul X v3
  let X := feMul X u
  let vxx := feSquare X
  let vxx := feMul vxx v
  let check := feSub vxx u
  let finish (X : Fe) : Ext :=
    let neg := feIsNegative X
    let X := neg.2
    let X := if neg.1 ≠ s[31] >>> 7 then feNeg X else X
    ⟨X, Y, Z, feMul X Y⟩
  if (feIsNonZero check).1 = 1 then
    let check := feAdd vxx u
    if (feIsNonZero check).1 = 1 then none
    else
      let X := feMul X feSqrtM1
      let X := (feToBytes X).2
      some (finish X)
  else some (finish X)

/-- edwards25519.go:632-634 `ProjectiveGroupElement`. -/
@[ext] structure Proj where
  (X Y Z : Fe)
  deriving DecidableEq, Repr

/-- edwards25519.go:640-642 `CompletedGroupElement`. -/
@[ext] structure Comp where
  (X Y Z T : Fe)
  deriving DecidableEq, Repr

/-- edwards25519.go:644-646 `PreComputedGroupElement`. -/
@[ext] structure Pre where
  (yPlusX yMinusX xy2d : Fe)
  deriving DecidableEq, Repr

/-- edwards25519.go:648-650 `CachedGroupElement`. -/
@[ext] structure Cached where
  (yPlusX yMinusX Z T2d : Fe)
  deriving DecidableEq, Repr

/-- edwards25519.go:652-656 `ProjectiveGroupElement.Zero`. -/
def Proj.zero : Proj := ⟨feZero, feOne, feOne⟩

/-- edwards25519.go:658-670 `ProjectiveGroupElement.Double`. -/
def Proj.double (p : Proj) : Comp :=
  let X := feSquare p.X
  let Z := feSquare p.Y
  let T := feSquare2 p.Z
  let Y := feAdd p.X p.Y
  let t0 := feSquare Y
  let Y := feAdd Z X
  let Z := feSub Z X
  let X := feSub t0 Y
  let T := feSub T Z
  ⟨X, Y, Z, T⟩

/-- edwards25519.go:672-680 and 708-716, the common body of the two `ToBytes` methods. `s[31] ^= FeIsNegative(&x) << 7` is on
bytes. -/
def bytesOf (X Y Z : Fe) : Arr 32 :=
  let recip := feInvert Z
  let x := feMul X recip
  let y := feMul Y recip
  let s := (feToBytes y).1
  s.set 31 (s[31] ^^^ (feIsNegative x).1 <<< 7)

/-- edwards25519.go:672-680 `ProjectiveGroupElement.ToBytes`. -/
def Proj.toBytes (p : Proj) : Arr 32 := bytesOf p.X p.Y p.Z

/-- edwards25519.go:682-687 `ExtendedGroupElement.Zero`. -/
def Ext.zero : Ext := ⟨feZero, feOne, feOne, feZero⟩

/-- edwards25519.go:702-706 `ExtendedGroupElement.ToProjective`. -/
def Ext.toProj (p : Ext) : Proj := ⟨p.X, p.Y, p.Z⟩

/-- edwards25519.go:689-693 `ExtendedGroupElement.Double`. -/
def Ext.double (p : Ext) : Comp := p.toProj.double

/-- edwards25519.go:695-700 `ExtendedGroupElement.ToCached`. -/
def Ext.toCached (p : Ext) : Cached := ⟨feAdd p.Y p.X, feSub p.Y p.X, p.Z, feMul p.T feD2⟩

/-- edwards25519.go:708-716 `ExtendedGroupElement.ToBytes`. -/
def Ext.toBytes (p : Ext) : Arr 32 := bytesOf p.X p.Y p.Z

/-- edwards25519.go:764-768 `CompletedGroupElement.ToProjective`. -/
def Comp.toProj (p : Comp) : Proj := ⟨feMul p.X p.T, feMul p.Y p.Z, feMul p.Z p.T⟩

/-- edwards25519.go:770-775 `CompletedGroupElement.ToExtended`. -/
def Comp.toExt (p : Comp) : Ext := ⟨feMul p.X p.T, feMul p.Y p.Z, feMul p.Z p.T, feMul p.X p.Y⟩

/-- edwards25519.go:777-781 `PreComputedGroupElement.Zero`. -/
def Pre.zero : Pre := ⟨feOne, feOne, feZero⟩

/-- edwards25519.go:783-797 `geAdd`. -/
def geAdd (p : Ext) (q : Cached) : Comp :=
  let X := feAdd p.Y p.X
  let Y := feSub p.Y p.X
  let Z := feMul X q.yPlusX
  let Y := feMul Y q.yMinusX
  let T := feMul q.T2d p.T
  let X := feMul p.Z q.Z
  let t0 := feAdd X X
  let X := feSub Z Y
  let Y := feAdd Z Y
  let Z := feAdd t0 T
  let T := feSub t0 T
  ⟨X, Y, Z, T⟩

/-- edwards25519.go:799-813 `geSub`. -/
def geSub (p : Ext) (q : Cached) : Comp :=
  let X := feAdd p.Y p.X
  let Y := feSub p.Y p.X
  let Z := feMul X q.yMinusX
  let Y := feMul Y q.yPlusX
  let T := feMul q.T2d p.T
  let X := feMul p.Z q.Z
  let t0 := feAdd X X
  let X := feSub Z Y
  let Y := feAdd Z Y
  let Z := feSub t0 T
  let T := feAdd t0 T
  ⟨X, Y, Z, T⟩

/-- edwards25519.go:815-828 `geMixedAdd`. -/
def geMixedAdd (p : Ext) (q : Pre) : Comp :=
  let X := feAdd p.Y p.X
  let Y := feSub p.Y p.X
  let Z := feMul X q.yPlusX
  let Y := feMul Y q.yMinusX
  let T := feMul q.xy2d p.T
  let t0 := feAdd p.Z p.Z
  let X := feSub Z Y
  let Y := feAdd Z Y
  let Z := feAdd t0 T
  let T := feSub t0 T
  ⟨X, Y, Z, T⟩

/-- edwards25519.go:830-843 `geMixedSub`. -/
def geMixedSub (p : Ext) (q : Pre) : Comp :=
  let X := feAdd p.Y p.X
  let Y := feSub p.Y p.X
  let Z := feMul X q.yMinusX
  let Y := feMul Y q.yPlusX
  let T := feMul q.xy2d p.T
  let t0 := feAdd p.Z p.Z
  let X := feSub Z Y
  let Y := feAdd Z Y
  let Z := feSub t0 T
  let T := feAdd t0 T
  ⟨X, Y, Z, T⟩

end Verif.Ed
