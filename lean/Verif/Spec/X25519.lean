import Verif.Spec.Sign
/-
What `golang.org/x/crypto/curve25519.ScalarMult` does (RFC 7748, section 5).  Nothing here refers to the repository's code.
-/
namespace Verif
open Verif.Ed Verif.Limb

/-- The field element X25519 reads from 32 bytes: the top bit is ignored, the rest is taken modulo the prime (RFC 7748, decodeUCoordinate). -/
def uCoord (u : Bytes) : F := ((leNat u % 2 ^ 255 : Nat) : F)

/-- `curve25519.ScalarMult(k, u)`: if u is the u-coordinate of a point of the curve, the result is the u-coordinate of that point multiplied by the clamped scalar.  (The point at infinity
and the point of order two both have u = 0.)  For values that are on the twist and not on the curve nothing is said. -/
def X25519Mult (mult : Arr 32 → Arr 32 → Arr 32) : Prop :=
  ∀ (k u : Arr 32) (P : Pt), uCoord u.bytes = montU P → (mult k u).bytes = leBytes 32 (montU (clampNat (leNat k.bytes) • P)).val

end Verif
