import Verif.Model.LimbGen
/-
ecc/edwards25519/edwards25519.go: the operations on field elements, as functions.  The limb programs they run are in
Model/LimbGen.lean.  Pointers: every operation is modelled as a function of the values its arguments hold on entry.
The Go code lets `dst` alias an operand; that does not change the result because FeAdd, FeSub and FeNeg work limb by
limb and the others read all limbs into locals before FeCombine writes any.
-/
namespace Verif.Limb

/-- edwards25519.go:14 `type FieldElement [10]int32`. -/
abbrev Fe := Fin 10 → Int

/-- The variables `x, x+1, …, x+9` hold the limbs of `f`. Arguments of the functions of ecc/edwards25519/edwards25519.go. -/
def place (x : Nat) (f : Fe) (ρ : Env) : Env := fun y => if h : x ≤ y ∧ y < x + 10 then f ⟨y - x, by omega⟩ else ρ y

/-- The variables `x, …, x+n-1` hold the elements of a list. Arguments of the functions of ecc/edwards25519/edwards25519.go. -/
def placeL (x : Nat) (l : List Int) (ρ : Env) : Env := fun y => if x ≤ y ∧ y < x + l.length then l.getD (y - x) 0 else ρ y

/-- Locals start at zero. ecc/edwards25519/edwards25519.go. -/
def zeroEnv : Env := fun _ => 0

/-- Read ten limbs. Results of the functions of ecc/edwards25519/edwards25519.go. -/
def Env.fe (ρ : Env) (x : Nat) : Fe := fun i => ρ (x + i)

/-- Read `n` values. Results of the functions of ecc/edwards25519/edwards25519.go. -/
def Env.list (ρ : Env) (x n : Nat) : List Int := (List.range n).map fun i => ρ (x + i)

/-- Ten literal limbs. ecc/edwards25519/const.go. -/
def Fe.of (l : List Int) : Fe := fun i => l.getD i 0

/-- edwards25519.go:18-20 `FeZero` -/
def feZero : Fe := fun _ => 0
/-- edwards25519.go:22-25 `FeOne` -/
def feOne : Fe := fun i => if i = 0 then 1 else 0

/-- edwards25519.go:27-38 -/
def feAdd (a b : Fe) : Fe := (run feAddP (place 0 a (place 10 b zeroEnv))).fe 20
/-- edwards25519.go:40-51 -/
def feSub (a b : Fe) : Fe := (run feSubP (place 0 a (place 10 b zeroEnv))).fe 20
/-- edwards25519.go:245-256 -/
def feNeg (f : Fe) : Fe := (run feNegP (place 0 f zeroEnv)).fe 20
/-- edwards25519.go:374-425 `FeMul`, ending in `FeCombine` (258-345) -/
def feMul (f g : Fe) : Fe := (run (feMulP ++ feCombineP) (place 0 f (place 10 g zeroEnv))).fe 20
/-- edwards25519.go:427-476 `FeSquare` -/
def feSquare (f : Fe) : Fe := (run (feSquareP ++ feCombineP) (place 0 f zeroEnv)).fe 20
/-- edwards25519.go:488-503 `FeSquare2` -/
def feSquare2 (f : Fe) : Fe := (run (feSquareP ++ (feDoubleP ++ feCombineP)) (place 0 f zeroEnv)).fe 20
/-- edwards25519.go:92-105 -/
def feFromBytes (s : List Int) : Fe := (run (feFromBytesP ++ feCombineP) (placeL 0 s zeroEnv)).fe 20

/-- edwards25519.go:130-217.  Returns the bytes and the limbs `h` is left with: the function reduces its argument in
place. -/
def feToBytes (h : Fe) : List Int × Fe :=
  let ρ := run (feToBytesQ ++ (feToBytesC ++ feToBytesS)) (place 0 h zeroEnv)
  (ρ.list 30 32, ρ.fe 0)

/-- edwards25519.go:219-223.  `s[0] & 1`. -/
def feIsNegative (f : Fe) : Int := (feToBytes f).1.headD 0 % 2

/-- edwards25519.go:225-239.  The bytes are or-ed into a `uint8`, whose bits are then folded onto bit 0. -/
def feIsNonZero (f : Fe) : Int :=
  let x : UInt8 := (feToBytes f).1.foldl (fun x b => x ||| UInt8.ofInt b) 0
  let x := x ||| (x >>> 4)
  let x := x ||| (x >>> 2)
  let x := x ||| (x >>> 1)
  (x &&& 1).toNat

/-- `n` further squarings, the loops `for i = 1; i < n+1; i++ { FeSquare(&t, &t) }`. ecc/edwards25519/edwards25519.go `FeInvert`, `fePow22523`. -/
def sqN : Nat → Fe → Fe
  | 0, t => t
  | n + 1, t => sqN n (feSquare t)

/-- edwards25519.go:505-558 -/
def feInvert (z : Fe) : Fe :=
  let t0 := feSquare z
  let t1 := feSquare t0
  let t1 := sqN 1 t1
  let t1 := feMul z t1
  let t0 := feMul t0 t1
  let t2 := feSquare t0
  let t1 := feMul t1 t2
  let t2 := feSquare t1
  let t2 := sqN 4 t2
  let t1 := feMul t2 t1
  let t2 := feSquare t1
  let t2 := sqN 9 t2
  let t2 := feMul t2 t1
  let t3 := feSquare t2
  let t3 := sqN 19 t3
  let t2 := feMul t3 t2
  let t2 := feSquare t2
  let t2 := sqN 9 t2
  let t1 := feMul t2 t1
  let t2 := feSquare t1
  let t2 := sqN 49 t2
  let t2 := feMul t2 t1
  let t3 := feSquare t2
  let t3 := sqN 99 t3
  let t2 := feMul t3 t2
  let t2 := feSquare t2
  let t2 := sqN 49 t2
  let t1 := feMul t2 t1
  let t1 := feSquare t1
  let t1 := sqN 4 t1
  feMul t1 t0

/-- edwards25519.go:560-618 -/
def fePow22523 (z : Fe) : Fe :=
  let t0 := feSquare z
  let t0 := sqN 0 t0
  let t1 := feSquare t0
  let t1 := sqN 1 t1
  let t1 := feMul z t1
  let t0 := feMul t0 t1
  let t0 := feSquare t0
  let t0 := sqN 0 t0
  let t0 := feMul t1 t0
  let t1 := feSquare t0
  let t1 := sqN 4 t1
  let t0 := feMul t1 t0
  let t1 := feSquare t0
  let t1 := sqN 9 t1
  let t1 := feMul t1 t0
  let t2 := feSquare t1
  let t2 := sqN 19 t2
  let t1 := feMul t2 t1
  let t1 := feSquare t1
  let t1 := sqN 9 t1
  let t0 := feMul t1 t0
  let t1 := feSquare t0
  let t1 := sqN 49 t1
  let t1 := feMul t1 t0
  let t2 := feSquare t1
  let t2 := sqN 99 t2
  let t1 := feMul t2 t1
  let t1 := feSquare t1
  let t1 := sqN 49 t1
  let t0 := feMul t1 t0
  let t0 := feSquare t0
  let t0 := sqN 1 t0
  feMul t0 z

/-- edwards25519.go:61-73 `f[i] ^= b & (f[i] ^ g[i])` with `b` replaced by `-b`, on 32-bit words. -/
def cmov32 (f g b : Int) : Int :=
  let f := BitVec.ofInt 32 f
  (f ^^^ (BitVec.ofInt 32 (-b) &&& (f ^^^ BitVec.ofInt 32 g))).toInt

/-- edwards25519.go:61-73 -/
def feCMove (f g : Fe) (b : Int) : Fe := fun i => cmov32 (f i) (g i) b

end Verif.Limb
