import Verif.Model.Sign
/-
kdf/hkdf.go: the key agreement.  curve25519.ScalarMult comes from a Go library and is the parameter `mult`.
-/
namespace Verif

/-- kdf/hkdf.go:35-40 `CalculateSharedSecret`: `curve25519.ScalarMult(&sharedSecret, &ourKey, &theirKey)`; the result is not looked at. -/
def calculateSharedSecret (mult : Arr 32 → Arr 32 → Arr 32) (theirKey ourKey : Key32) : Key32 := mult ourKey theirKey

/-- The primitives of the model with the repository's own signatures (`withSignatures`) and its key agreement, kdf/hkdf.go:35-40. -/
def withX25519 (G : GoLib) (mult : Arr 32 → Arr 32 → Arr 32) (C : Crypto) : Crypto :=
  { withSignatures G C with dh := calculateSharedSecret mult }

end Verif
