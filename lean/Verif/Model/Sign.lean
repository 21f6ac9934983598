import Verif.Model.Crypto
import Verif.Model.Group
import Verif.Model.Scalar
import Verif.Spec.Sign
/-
ecc/sign_curve25519.go: signatures with Curve25519 keys.  SHA-512, ed25519.Verify and curve25519.ScalarBaseMult come from Go
libraries and are the parameter `G`.
-/
namespace Verif
open Verif.Limb

/-- A `[]byte` as the numbers the limb code computes with, and back into a `[n]byte`. ecc/sign_curve25519.go passes byte arrays to edwards25519.go. -/
def ints (b : Bytes) : List Int := b.map fun x => (x.toNat : Int)
/-- The numbers the limb code returns as a `[n]byte` (ecc/sign_curve25519.go). -/
def toArr (n : Nat) (l : List Int) : Arr n := sliceToArray n (l.map UInt8.ofInt)

/-- ecc/sign_curve25519.go:45-49 -/
def diversifier : Bytes := 0xFE :: List.replicate 31 0xFF

/-- ecc/sign_curve25519.go:36-87 `sign` -/
def sign (G : GoLib) (priv : Key32) (msg : Bytes) (random : Arr 64) : Sig64 :=
  let publicKey := toArr 32 (geScalarMultBase (ints priv.bytes)).toBytes
  let r := G.sha512 (diversifier ++ priv.bytes ++ msg ++ random.bytes)
  let rReduced := toArr 32 (scReduce (ints r.bytes))
  let encodedR := toArr 32 (geScalarMultBase (ints rReduced.bytes)).toBytes
  let hramDigest := G.sha512 (encodedR.bytes ++ publicKey.bytes ++ msg)
  let hramDigestReduced := toArr 32 (scReduce (ints hramDigest.bytes))
  let s := toArr 32 (scMulAdd (ints hramDigestReduced.bytes) (ints priv.bytes) (ints rReduced.bytes))
  ⟨(encodedR.bytes ++ s.bytes).modify 63 (· ||| (publicKey.bytes.getD 31 0 &&& 0x80)), by simp [encodedR.len, s.len]⟩

/-- ecc/sign_curve25519.go:90-122 `verify`: the verdict and what the caller's signature array holds afterwards.  Callers
(ecc/curve.go:85-91 `VerifySignature`) pass a copy. -/
def verify (G : GoLib) (pub : Key32) (msg : Bytes) (signature : Sig64) : Bool × Sig64 :=
  let publicKey := pub.bytes.modify 31 (· &&& 0x7F)
  let montX := feFromBytes (ints publicKey)
  let montXMinusOne := feSub montX feOne
  let montXPlusOne := feAdd montX feOne
  let montXPlusOne := feInvert montXPlusOne
  let edY := feMul montXMinusOne montXPlusOne
  let aEd := toArr 32 (feToBytes edY).1
  let aEd := aEd.bytes.modify 31 (· ||| (signature.bytes.getD 63 0 &&& 0x80))
  let signature : Sig64 := ⟨signature.bytes.modify 63 (· &&& 0x7F), by simp [signature.len]⟩
  (G.edVerify aEd msg signature.bytes, signature)

/-- The primitives of the model with the repository's own signatures: ecc/curve.go:107-120 `CalculateSignature` and 85-91
`VerifySignature`, curve25519.ScalarBaseMult for public keys; the rest as in `C`. -/
def withSignatures (G : GoLib) (C : Crypto) : Crypto :=
  { C with basePub := G.baseMult, sign := sign G, verify := fun p m s => (verify G p m s).1 }

end Verif
