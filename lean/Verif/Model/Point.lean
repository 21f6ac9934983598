import Verif.Model.Group
/-
ecc/edwards25519/edwards25519.go: the remaining exported operations on points: decoding, projective encoding, caching.
-/
namespace Verif.Limb

/-- edwards25519.go:646-648 -/
structure CachedPoint where
  yPlusX : Fe
  yMinusX : Fe
  Z : Fe
  T2d : Fe

/-- edwards25519.go:670-678 `ToBytes` -/
def ProjectivePoint.toBytes (p : ProjectivePoint) : List Int :=
  let recip := feInvert p.Z
  let x := feMul p.X recip
  let y := feMul p.Y recip
  flipTop (feToBytes y).1 (feIsNegative x)

/-- edwards25519.go:693-698 `ToCached` -/
def ExtendedPoint.toCached (p : ExtendedPoint) : CachedPoint :=
  ⟨feAdd p.Y p.X, feSub p.Y p.X, p.Z, feMul p.T feD2⟩

/-- edwards25519.go:716-760 `FromBytes`: the point, or `none` for `false` (the receiver's fields then hold intermediate values).
FeIsNegative and FeToBytes reduce their argument in place, hence `(feToBytes X).2`; the byte arrays tmpX and tmp2 (738-746) are
written and not used. -/
def ExtendedPoint.fromBytes (s : List Int) : Option ExtendedPoint :=
  let Y := feFromBytes s
  let Z := feOne
  let u := feSquare Y
  let v := feMul u feD
  let u := feSub u Z
  let v := feAdd v Z
  let v3 := feSquare v
  let v3 := feMul v3 v
  let X := feSquare v3
  let X := feMul X v
  let X := feMul X u
  let X := fePow22523 X
  let X := feMul X v3
  let X := feMul X u
  let vxx := feSquare X
  let vxx := feMul vxx v
  let finish := fun X : Fe =>
    let neg := feIsNegative X
    let X := (feToBytes X).2
    let X := if neg ≠ s.getD 31 0 / 128 then feNeg X else X
    (⟨X, Y, Z, feMul X Y⟩ : ExtendedPoint)
  if feIsNonZero (feSub vxx u) = 1 then
    if feIsNonZero (feAdd vxx u) = 1 then none
    else some (finish (feToBytes (feMul X feSqrtM1)).2)
  else some (finish X)

end Verif.Limb
