import Verif.Model.Basic
import Verif.Proofs.Curve
import Verif.Spec.Scalar
/-
What the Go standard library functions called by ecc/sign_curve25519.go do, and the mathematical objects (points of the
Ed25519 curve, their encodings) in terms of which signatures are specified.  Nothing here refers to the repository's code.
-/
namespace Verif
open Verif.Ed Verif.Limb

/-- The number a little-endian byte string stands for. -/
def leNat : Bytes → Nat
  | [] => 0
  | b :: l => b.toNat + 256 * leNat l

/-- The `n`-byte little-endian encoding of a number. -/
def leBytes : Nat → Nat → Bytes
  | 0, _ => []
  | n + 1, v => UInt8.ofNat (v % 256) :: leBytes n (v / 256)

/-- RFC 8032, 5.1.2: a field element and a sign bit in 32 bytes. -/
def encodeYS (y : F) (s : Nat) : Bytes := leBytes 32 (y.val + 2 ^ 255 * s)

/-- RFC 8032, 5.1.2: the encoding of a point is its y-coordinate with the parity of x in the top bit. -/
def encodePoint (P : Pt) : Bytes := encodeYS P.y (P.x.val % 2)

/-- RFC 7748, section 5 (decodeScalar25519): the scalar X25519 uses for a 32-byte secret. -/
def clampNat (n : Nat) : Nat := n % 2 ^ 254 / 8 * 8 + 2 ^ 254

/-- RFC 7748: the Montgomery u-coordinate of an Edwards point. -/
def montU (P : Pt) : F := (1 + P.y) / (1 - P.y)

/-- The functions of the Go libraries: `crypto/sha512`, `crypto/ed25519.Verify`,
`golang.org/x/crypto/curve25519.ScalarBaseMult`. -/
structure GoLib where
  sha512 : Bytes → Arr 64
  edVerify : Bytes → Bytes → Bytes → Bool
  baseMult : Arr 32 → Arr 32

/-- `ed25519.Verify(pk, msg, R‖S)`, for a public key whose y is a reduced field element: S must be below the group order, the
key must decode to a point (when x = 0 either sign bit is accepted), and the encoding of `[S]B - [k]A` must be R, where k is
SHA-512(R ‖ pk ‖ msg) modulo the group order. -/
def GoLib.EdLaw (G : GoLib) : Prop :=
  ∀ (y : F) (s : Nat) (msg : Bytes) (R S : Arr 32), s < 2 →
    (G.edVerify (encodeYS y s) msg (R.bytes ++ S.bytes) = true ↔
      leNat S.bytes < L25519 ∧ ∃ A : Pt, A.y = y ∧ (A.x = 0 ∨ A.x.val % 2 = s) ∧
        encodePoint (leNat S.bytes • B - (leNat (G.sha512 (R.bytes ++ encodeYS y s ++ msg)).bytes % L25519) • A) = R.bytes)

/-- `curve25519.ScalarBaseMult(k)`: the u-coordinate of the base point multiplied by the clamped scalar. -/
def GoLib.X25519Law (G : GoLib) : Prop :=
  ∀ k : Arr 32, (G.baseMult k).bytes = leBytes 32 (montU (clampNat (leNat k.bytes) • B)).val

end Verif
