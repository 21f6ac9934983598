import Verif.Model.Field
import Verif.Model.TableGen
/-
ecc/edwards25519/edwards25519.go: points of the curve.  Pointers as in Model/Field.lean: each method is a function from the
values its receiver and arguments hold on entry to the values it leaves in its results.
-/
namespace Verif.Limb

/-- edwards25519.go:630-632 -/
structure ProjectivePoint where
  X : Fe
  Y : Fe
  Z : Fe

/-- edwards25519.go:634-636 -/
structure ExtendedPoint where
  X : Fe
  Y : Fe
  Z : Fe
  T : Fe

/-- edwards25519.go:638-640 -/
structure CompletedPoint where
  X : Fe
  Y : Fe
  Z : Fe
  T : Fe

/-- edwards25519.go:642-644 -/
structure PrePoint where
  yPlusX : Fe
  yMinusX : Fe
  xy2d : Fe

/-- const.go:10-13 -/
def feD : Fe := Fe.of dLimbs
/-- const.go:16-18 -/
def feD2 : Fe := Fe.of d2Limbs
/-- const.go:21-23 -/
def feSqrtM1 : Fe := Fe.of sqrtM1Limbs

/-- const.go:27-1372: `base[pos][i]`. -/
def baseEntry (pos i : Nat) : PrePoint :=
  let e := (baseLimbs.getD pos []).getD i []
  ⟨Fe.of (e.getD 0 []), Fe.of (e.getD 1 []), Fe.of (e.getD 2 [])⟩

/-- edwards25519.go:656-668 `Double` -/
def ProjectivePoint.double (p : ProjectivePoint) : CompletedPoint :=
  let rX := feSquare p.X
  let rZ := feSquare p.Y
  let rT := feSquare2 p.Z
  let rY := feAdd p.X p.Y
  let t0 := feSquare rY
  let rY := feAdd rZ rX
  let rZ := feSub rZ rX
  let rX := feSub t0 rY
  let rT := feSub rT rZ
  ⟨rX, rY, rZ, rT⟩

/-- Byte 31 of the encoding: `s[31] ^= FeIsNegative(&x) << 7`. ecc/edwards25519/edwards25519.go:677. -/
def flipTop (s : List Int) (neg : Int) : List Int :=
  s.set 31 ((UInt8.ofInt (s.getD 31 0) ^^^ (UInt8.ofInt neg <<< 7)).toNat : Int)

/-- edwards25519.go:706-714 `ToBytes` -/
def ExtendedPoint.toBytes (p : ExtendedPoint) : List Int :=
  let recip := feInvert p.Z
  let x := feMul p.X recip
  let y := feMul p.Y recip
  flipTop (feToBytes y).1 (feIsNegative x)

/-- edwards25519.go:680-685 `Zero` -/
def ExtendedPoint.zero : ExtendedPoint := ⟨feZero, feOne, feOne, feZero⟩

/-- edwards25519.go:700-704 `ToProjective` -/
def ExtendedPoint.toProjective (p : ExtendedPoint) : ProjectivePoint := ⟨p.X, p.Y, p.Z⟩

/-- edwards25519.go:687-691 `Double` -/
def ExtendedPoint.double (p : ExtendedPoint) : CompletedPoint := p.toProjective.double

/-- edwards25519.go:762-766 `ToProjective` -/
def CompletedPoint.toProjective (p : CompletedPoint) : ProjectivePoint :=
  ⟨feMul p.X p.T, feMul p.Y p.Z, feMul p.Z p.T⟩

/-- edwards25519.go:768-773 `ToExtended` -/
def CompletedPoint.toExtended (p : CompletedPoint) : ExtendedPoint :=
  ⟨feMul p.X p.T, feMul p.Y p.Z, feMul p.Z p.T, feMul p.X p.Y⟩

/-- edwards25519.go:775-779 `Zero` -/
def PrePoint.zero : PrePoint := ⟨feOne, feOne, feZero⟩

/-- edwards25519.go:781-794 -/
def geMixedAdd (p : ExtendedPoint) (q : PrePoint) : CompletedPoint :=
  let rX := feAdd p.Y p.X
  let rY := feSub p.Y p.X
  let rZ := feMul rX q.yPlusX
  let rY := feMul rY q.yMinusX
  let rT := feMul q.xy2d p.T
  let t0 := feAdd p.Z p.Z
  let rX := feSub rZ rY
  let rY := feAdd rZ rY
  let rZ := feAdd t0 rT
  let rT := feSub t0 rT
  ⟨rX, rY, rZ, rT⟩

/-- edwards25519.go:798-802 `equal`: on 32-bit words, 1 if they are the same (and not both have the top bit differing). -/
def equal32 (b c : BitVec 32) : BitVec 32 := ((b ^^^ c) - 1) >>> 31

/-- edwards25519.go:805-807 `negative` -/
def negative32 (b : BitVec 32) : BitVec 32 := (b.sshiftRight 31) &&& 1

/-- edwards25519.go:809-813 -/
def preCMove (t u : PrePoint) (b : BitVec 32) : PrePoint :=
  ⟨feCMove t.yPlusX u.yPlusX b.toInt, feCMove t.yMinusX u.yMinusX b.toInt, feCMove t.xy2d u.xy2d b.toInt⟩

/-- edwards25519.go:821-823: the loop over the eight table entries. -/
def selectLoop (pos : Nat) (bAbs : BitVec 32) : List Nat → PrePoint → PrePoint
  | [], t => t
  | i :: l, t => selectLoop pos bAbs l (preCMove t (baseEntry pos i) (equal32 bAbs (BitVec.ofNat 32 (i + 1))))

/-- edwards25519.go:815-828 `selectPoint` -/
def selectPoint (pos : Nat) (b : BitVec 32) : PrePoint :=
  let bNegative := negative32 b
  let bAbs := b - (((-bNegative) &&& b) <<< 1)
  let t := selectLoop pos bAbs (List.range 8) PrePoint.zero
  let minusT : PrePoint := ⟨t.yMinusX, t.yPlusX, feNeg t.xy2d⟩
  preCMove t minusT bNegative

/-- Conversion to `int8`. ecc/edwards25519/edwards25519.go `GeScalarMultBase`. -/
def wrap8 (x : Int) : Int := Int.bmod x 256

/-- edwards25519.go:839-842: the 64 half bytes, least significant first. -/
def nibbles (a : List Int) : List Int := a.flatMap fun v => [wrap8 (v % 16), wrap8 (v / 16 % 16)]

/-- edwards25519.go:846-852: the carry loop in `int8`; the last digit only receives the carry. -/
def recode : List Int → Int → List Int
  | [], _ => []
  | [e], carry => [wrap8 (e + carry)]
  | e :: e' :: l, carry =>
    let e := wrap8 (e + carry)
    let carry := wrap8 (e + 8) / 16
    wrap8 (e - wrap8 (carry * 16)) :: recode (e' :: l) carry

/-- edwards25519.go:858-862 and 875-879: add the selected table entries for the digits `i` of a list. -/
def addDigits (e : List Int) : List Nat → ExtendedPoint → ExtendedPoint
  | [], h => h
  | i :: l, h => addDigits e l ((geMixedAdd h (selectPoint (i / 2) (BitVec.ofInt 32 (e.getD i 0)))).toExtended)

/-- edwards25519.go:836-880 `GeScalarMultBase` -/
def geScalarMultBase (a : List Int) : ExtendedPoint :=
  let e := recode (nibbles a) 0
  let h := addDigits e ((List.range 32).map fun j => 2 * j + 1) ExtendedPoint.zero
  let s := h.double.toProjective
  let s := s.double.toProjective
  let s := s.double.toProjective
  let h := s.double.toExtended
  addDigits e ((List.range 32).map fun j => 2 * j) h

end Verif.Limb
