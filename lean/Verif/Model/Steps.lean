import Verif.Model.Sign
import Verif.Model.Protocol
import Verif.Spec.Steps
/-
The functions on the way of the private key through ecc/sign_curve25519.go and ecc/edwards25519/edwards25519.go, and the check of a MAC, with the steps they take: every statement, every array
element, every condition.  Integer operations are taken to need a time that does not depend on their operands; the library functions (SHA-512, HMAC, copy) one that depends on lengths only.
-/
namespace Verif.Limb
open Verif.Steps

/-- The file of which a statement is executed. ecc/edwards25519/edwards25519.go. -/
def ed (n : Nat) : Timed Unit := tick (.line "edwards25519.go" n)

/-- A sequence of assignments (Model/Limb `run`): each is a statement; the limbs it reads and writes have constant indices in the source text, and are those of the variables in the expression.
The language in which ecc/edwards25519/edwards25519.go is transcribed. -/
def Ex.vars : Ex → List Nat
  | .v x => [x]
  | .k _ => []
  | .add _ a b => a.vars ++ b.vars
  | .sub _ a b => a.vars ++ b.vars
  | .mul _ a b => a.vars ++ b.vars
  | .neg _ a => a.vars
  | .and _ a b => a.vars ++ b.vars
  | .or _ a b => a.vars ++ b.vars
  | .shl _ a _ => a.vars
  | .shr a _ => a.vars
  | .cast _ a => a.vars

/-- Running a sequence of assignments, step by step: the variables read, then the one written. The language in which ecc/edwards25519/edwards25519.go is transcribed. -/
def tRun : Prog → Env → Timed Env
  | [], ρ => return ρ
  | (x, e) :: p, ρ => do
    tick (.index "limbs" e.vars)
    tick (.index "limbs" [x])
    tRun p (ρ.set x (e.eval ρ))

/-- edwards25519.go:27-38 -/
def tFeAdd (a b : Fe) : Timed Fe := do ed 27; let ρ ← tRun feAddP (place 0 a (place 10 b zeroEnv)); return ρ.fe 20
/-- edwards25519.go:40-51 -/
def tFeSub (a b : Fe) : Timed Fe := do ed 40; let ρ ← tRun feSubP (place 0 a (place 10 b zeroEnv)); return ρ.fe 20
/-- edwards25519.go:245-256 -/
def tFeNeg (f : Fe) : Timed Fe := do ed 245; let ρ ← tRun feNegP (place 0 f zeroEnv); return ρ.fe 20
/-- edwards25519.go:374-425 `FeMul`, ending in `FeCombine` (258-345) -/
def tFeMul (f g : Fe) : Timed Fe := do ed 374; let ρ ← tRun (feMulP ++ feCombineP) (place 0 f (place 10 g zeroEnv)); return ρ.fe 20
/-- edwards25519.go:427-476 `FeSquare` -/
def tFeSquare (f : Fe) : Timed Fe := do ed 473; let ρ ← tRun (feSquareP ++ feCombineP) (place 0 f zeroEnv); return ρ.fe 20
/-- edwards25519.go:488-503 `FeSquare2` -/
def tFeSquare2 (f : Fe) : Timed Fe := do ed 488; let ρ ← tRun (feSquareP ++ (feDoubleP ++ feCombineP)) (place 0 f zeroEnv); return ρ.fe 20
/-- edwards25519.go:130-217 `FeToBytes` -/
def tFeToBytes (h : Fe) : Timed (List Int × Fe) := do
  ed 130
  let ρ ← tRun (feToBytesQ ++ (feToBytesC ++ feToBytesS)) (place 0 h zeroEnv)
  return (ρ.list 30 32, ρ.fe 0)
/-- edwards25519.go:53-55 `FeCopy` -/
def tFeCopy (f : Fe) : Timed Fe := do tick (.lib "copy" [40, 40]); return f
/-- edwards25519.go:18-20 `FeZero` -/
def tFeZero : Timed Fe := do tick (.lib "copy" [40, 40]); return feZero
/-- edwards25519.go:22-25 `FeOne` -/
def tFeOne : Timed Fe := do tick (.lib "copy" [40, 40]); ed 24; return feOne

/-- edwards25519.go:219-223 `FeIsNegative` -/
def tFeIsNegative (f : Fe) : Timed Int := do
  let s ← tFeToBytes f
  tick (.index "s" [0])
  return s.1.headD 0 % 2

/-- The loop `for i = 1; i < n+1; i++ { FeSquare(&t, &t) }`: the condition is evaluated before each round and once more at the end. ecc/edwards25519/edwards25519.go:505-558 `FeInvert`. -/
def tSqN : Nat → Fe → Timed Fe
  | 0, t => do tick (.branch false); return t
  | n + 1, t => do tick (.branch true); let t ← tFeSquare t; tSqN n t

/-- edwards25519.go:505-558 `FeInvert` -/
def tFeInvert (z : Fe) : Timed Fe := do
  let t0 ← tFeSquare z
  let t1 ← tFeSquare t0
  let t1 ← tSqN 1 t1
  let t1 ← tFeMul z t1
  let t0 ← tFeMul t0 t1
  let t2 ← tFeSquare t0
  let t1 ← tFeMul t1 t2
  let t2 ← tFeSquare t1
  let t2 ← tSqN 4 t2
  let t1 ← tFeMul t2 t1
  let t2 ← tFeSquare t1
  let t2 ← tSqN 9 t2
  let t2 ← tFeMul t2 t1
  let t3 ← tFeSquare t2
  let t3 ← tSqN 19 t3
  let t2 ← tFeMul t3 t2
  let t2 ← tFeSquare t2
  let t2 ← tSqN 9 t2
  let t1 ← tFeMul t2 t1
  let t2 ← tFeSquare t1
  let t2 ← tSqN 49 t2
  let t2 ← tFeMul t2 t1
  let t3 ← tFeSquare t2
  let t3 ← tSqN 99 t3
  let t2 ← tFeMul t3 t2
  let t2 ← tFeSquare t2
  let t2 ← tSqN 49 t2
  let t1 ← tFeMul t2 t1
  let t1 ← tFeSquare t1
  let t1 ← tSqN 4 t1
  tFeMul t1 t0

/-- edwards25519.go:61-73 `FeCMove`: eleven statements. -/
def tFeCMove (f g : Fe) (b : Int) : Timed Fe := do
  ed 62; ed 63; ed 64; ed 65; ed 66; ed 67; ed 68; ed 69; ed 70; ed 71; ed 72
  return feCMove f g b

/-- edwards25519.go:656-668 `Double` -/
def tDouble (p : ProjectivePoint) : Timed CompletedPoint := do
  let rX ← tFeSquare p.X
  let rZ ← tFeSquare p.Y
  let rT ← tFeSquare2 p.Z
  let rY ← tFeAdd p.X p.Y
  let t0 ← tFeSquare rY
  let rY ← tFeAdd rZ rX
  let rZ ← tFeSub rZ rX
  let rX ← tFeSub t0 rY
  let rT ← tFeSub rT rZ
  return ⟨rX, rY, rZ, rT⟩

/-- edwards25519.go:700-704 `ToProjective` -/
def tExtToProjective (p : ExtendedPoint) : Timed ProjectivePoint := do
  let x ← tFeCopy p.X
  let y ← tFeCopy p.Y
  let z ← tFeCopy p.Z
  return ⟨x, y, z⟩

/-- edwards25519.go:687-691 `Double` -/
def tExtDouble (p : ExtendedPoint) : Timed CompletedPoint := do let q ← tExtToProjective p; tDouble q

/-- edwards25519.go:706-714 `ToBytes` -/
def tToBytes (p : ExtendedPoint) : Timed (List Int) := do
  let recip ← tFeInvert p.Z
  let x ← tFeMul p.X recip
  let y ← tFeMul p.Y recip
  let s ← tFeToBytes y
  let n ← tFeIsNegative x
  tick (.index "s" [31])
  return flipTop s.1 n

/-- edwards25519.go:680-685 `Zero` -/
def tExtZero : Timed ExtendedPoint := do
  let x ← tFeZero
  let y ← tFeOne
  let z ← tFeOne
  let t ← tFeZero
  return ⟨x, y, z, t⟩

/-- edwards25519.go:762-766 `ToProjective` -/
def tToProjective (p : CompletedPoint) : Timed ProjectivePoint := do
  let x ← tFeMul p.X p.T
  let y ← tFeMul p.Y p.Z
  let z ← tFeMul p.Z p.T
  return ⟨x, y, z⟩

/-- edwards25519.go:768-773 `ToExtended` -/
def tToExtended (p : CompletedPoint) : Timed ExtendedPoint := do
  let x ← tFeMul p.X p.T
  let y ← tFeMul p.Y p.Z
  let z ← tFeMul p.Z p.T
  let t ← tFeMul p.X p.Y
  return ⟨x, y, z, t⟩

/-- edwards25519.go:775-779 `Zero` -/
def tPreZero : Timed PrePoint := do
  let x ← tFeOne
  let y ← tFeOne
  let z ← tFeZero
  return ⟨x, y, z⟩

/-- edwards25519.go:781-794 -/
def tGeMixedAdd (p : ExtendedPoint) (q : PrePoint) : Timed CompletedPoint := do
  let rX ← tFeAdd p.Y p.X
  let rY ← tFeSub p.Y p.X
  let rZ ← tFeMul rX q.yPlusX
  let rY ← tFeMul rY q.yMinusX
  let rT ← tFeMul q.xy2d p.T
  let t0 ← tFeAdd p.Z p.Z
  let rX ← tFeSub rZ rY
  let rY ← tFeAdd rZ rY
  let rZ ← tFeAdd t0 rT
  let rT ← tFeSub t0 rT
  return ⟨rX, rY, rZ, rT⟩

/-- edwards25519.go:798-802 `equal` -/
def tEqual (b c : BitVec 32) : Timed (BitVec 32) := do ed 799; ed 800; ed 801; return equal32 b c

/-- edwards25519.go:805-807 `negative` -/
def tNegative (b : BitVec 32) : Timed (BitVec 32) := do ed 806; return negative32 b

/-- edwards25519.go:809-813 -/
def tPreCMove (t u : PrePoint) (b : BitVec 32) : Timed PrePoint := do
  let x ← tFeCMove t.yPlusX u.yPlusX b.toInt
  let y ← tFeCMove t.yMinusX u.yMinusX b.toInt
  let z ← tFeCMove t.xy2d u.xy2d b.toInt
  return ⟨x, y, z⟩

/-- edwards25519.go:821-823: the loop over the eight table entries. -/
def tSelectLoop (pos : Nat) (bAbs : BitVec 32) : List Nat → PrePoint → Timed PrePoint
  | [], t => do tick (.branch false); return t
  | i :: l, t => do
    tick (.branch true)
    let e ← tEqual bAbs (BitVec.ofNat 32 (i + 1))
    tick (.index "base" [pos, i])
    let t ← tPreCMove t (baseEntry pos i) e
    tSelectLoop pos bAbs l t

/-- edwards25519.go:815-828 `selectPoint` -/
def tSelectPoint (pos : Nat) (b : BitVec 32) : Timed PrePoint := do
  let bNegative ← tNegative b
  ed 818
  let bAbs := b - (((-bNegative) &&& b) <<< 1)
  let t ← tPreZero
  let t ← tSelectLoop pos bAbs (List.range 8) t
  let x ← tFeCopy t.yMinusX
  let y ← tFeCopy t.yPlusX
  let z ← tFeNeg t.xy2d
  tPreCMove t ⟨x, y, z⟩ bNegative

/-- edwards25519.go:839-842: the 64 half bytes; `i` counts the bytes. -/
def tNibbles : Nat → List Int → Timed (List Int)
  | _, [] => do tick (.branch false); return []
  | i, v :: a => do
    tick (.branch true)
    tick (.index "a" [i])
    tick (.index "e" [2 * i])
    tick (.index "e" [2 * i + 1])
    let l ← tNibbles (i + 1) a
    return wrap8 (v % 16) :: wrap8 (v / 16 % 16) :: l

/-- edwards25519.go:846-852: the carry loop; `i` counts the digits. -/
def tRecode : Nat → List Int → Int → Timed (List Int)
  | _, [], _ => return []
  | i, [e], carry => do
    tick (.branch false)
    tick (.index "e" [i])
    return [wrap8 (e + carry)]
  | i, e :: e' :: l, carry => do
    tick (.branch true)
    tick (.index "e" [i])
    let e := wrap8 (e + carry)
    tick (.index "e" [i])
    let carry := wrap8 (e + 8) / 16
    tick (.index "e" [i])
    let l ← tRecode (i + 1) (e' :: l) carry
    return wrap8 (e - wrap8 (carry * 16)) :: l

/-- edwards25519.go:858-862 and 875-879: add the selected table entries for the digits `i` of a list. -/
def tAddDigits (e : List Int) : List Nat → ExtendedPoint → Timed ExtendedPoint
  | [], h => do tick (.branch false); return h
  | i :: l, h => do
    tick (.branch true)
    tick (.index "e" [i])
    let t ← tSelectPoint (i / 2) (BitVec.ofInt 32 (e.getD i 0))
    let r ← tGeMixedAdd h t
    let h ← tToExtended r
    tAddDigits e l h

/-- edwards25519.go:836-880 `GeScalarMultBase` -/
def tGeScalarMultBase (a : List Int) : Timed ExtendedPoint := do
  let e ← tNibbles 0 a
  let e ← tRecode 0 e 0
  let h ← tExtZero
  let h ← tAddDigits e ((List.range 32).map fun j => 2 * j + 1) h
  let r ← tExtDouble h
  let s ← tToProjective r
  let r ← tDouble s
  let s ← tToProjective r
  let r ← tDouble s
  let s ← tToProjective r
  let r ← tDouble s
  let h ← tToExtended r
  tAddDigits e ((List.range 32).map fun j => 2 * j) h

/-- edwards25519.go:1323-1639 `ScReduce` -/
def tScReduce (s : List Int) : Timed (List Int) := do ed 1323; let ρ ← tRun scReduceP (placeL 0 s zeroEnv); return ρ.list 64 32

/-- edwards25519.go:892-1315 `ScMulAdd` -/
def tScMulAdd (a b c : List Int) : Timed (List Int) := do
  ed 892
  let ρ ← tRun scMulAddP (placeL 0 a (placeL 32 b (placeL 160 c zeroEnv)))
  return ρ.list 64 32

end Verif.Limb

namespace Verif
open Verif.Limb Verif.Steps

/-- A SHA-512 over several parts: `Write` for each, then `Sum`. ecc/sign_curve25519.go:51-57, 69-74. -/
def tSha512 (G : GoLib) (parts : List Bytes) : Timed (Arr 64) := do
  tick (.lib "sha512" (parts.map List.length))
  return G.sha512 parts.flatten

/-- ecc/sign_curve25519.go:36-87 `sign` -/
def tSign (G : GoLib) (priv : Key32) (msg : Bytes) (random : Arr 64) : Timed Sig64 := do
  let a ← tGeScalarMultBase (ints priv.bytes)
  let pk ← tToBytes a
  let publicKey := toArr 32 pk
  let r ← tSha512 G [diversifier, priv.bytes, msg, random.bytes]
  let rr ← tScReduce (ints r.bytes)
  let rReduced := toArr 32 rr
  let bigR ← tGeScalarMultBase (ints rReduced.bytes)
  let er ← tToBytes bigR
  let encodedR := toArr 32 er
  let hramDigest ← tSha512 G [encodedR.bytes, publicKey.bytes, msg]
  let hd ← tScReduce (ints hramDigest.bytes)
  let hramDigestReduced := toArr 32 hd
  let s ← tScMulAdd (ints hramDigestReduced.bytes) (ints priv.bytes) (ints rReduced.bytes)
  let s := toArr 32 s
  tick (.lib "copy" [64, 32])
  tick (.lib "copy" [32, 32])
  tick (.index "publicKey" [31])
  tick (.index "signature" [63])
  return ⟨(encodedR.bytes ++ s.bytes).modify 63 (· ||| (publicKey.bytes.getD 31 0 &&& 0x80)), by simp [encodedR.len, s.len]⟩

/-- The loop of `subtle.ConstantTimeCompare` (Go library): `for i := 0; i < len(x); i++ { v |= x[i] ^ y[i] }`.  Called by protocol/signal_message.go:187 and provision/cipher.go:34. -/
def tCompareLoop : Nat → Bytes → Bytes → UInt8 → Timed UInt8
  | i, x :: xs, y :: ys, v => do
    tick (.branch true)
    tick (.index "x" [i])
    tick (.index "y" [i])
    tCompareLoop (i + 1) xs ys (v ||| (x ^^^ y))
  | _, _, _, v => do tick (.branch false); return v

/-- `hmac.Equal` (Go library): `subtle.ConstantTimeCompare(x, y) == 1`, which returns 0 at once for slices of different lengths.  Called by protocol/signal_message.go:187 and
provision/cipher.go:34. -/
def tHmacEqual (x y : Bytes) : Timed Bool :=
  Steps.cond (x.length ≠ y.length) (return false) do
    let v ← tCompareLoop 0 x y 0
    return v == 0

/-- protocol/signal_message.go:150-192 `VerifyMac`.  All that happens before `getMac` works on the message, which the attacker knows: it is left out; `serialized` is its result.
protocol/signal_message.go:213-228 `getMac`: `macKey` and the serialised public keys go into HMAC; the branch is on the version. -/
def SignalMsg.tVerifyMac (C : Crypto) (S : Ser SMStruct) (m : SignalMsg) (version : Int) (sender receiver : Option Key32) (macKey : Bytes) : Timed (Res Unit) :=
  match (newSignalMessageFromStruct m.struct).bind fun m' => S.ser { m'.struct with mac := none, version := 0 } with
  | .err e => return .err e
  | .panic => return .panic
  | .ok body => do
    tick (.branch (decide (version ≥ 3)))
    tick (.lib "hmac" [macKey.length, (itoa m.struct.version ++ body).length])
    match getMac C version sender receiver macKey (itoa m.struct.version ++ body) with
    | .err e => return .err e
    | .panic => return .panic
    | .ok ours => do
      let eq ← tHmacEqual ours (m.struct.mac.getD [])
      Steps.cond (!eq) (return .err .badMac) (return .ok ())

end Verif
