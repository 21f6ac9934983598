import Verif.Model.Basic
/-
Cryptographic primitives as parameters, and the key derivation built on them.
-/
namespace Verif

/-- A 32-byte key, ecc/djb_ec_public.go:13. -/
abbrev Key32 := Arr 32
/-- A signature, e.g. keys/prekey/bundle.go `[64]byte`. -/
abbrev Sig64 := Arr 64
/-- An AES block (crypto/aes, used by cipher/cbc.go). -/
abbrev Block := Arr 16

/-- The primitives the library calls.  Everything above them is modelled; they
themselves are parameters.
* `dh theirPublic ourPrivate` – kdf/hkdf.go:35-40 `CalculateSharedSecret`
  (`curve25519.ScalarMult`);
* `basePub private` – `curve25519.ScalarBaseMult` (ecc/curve.go:41,72);
* `hmac key msg` – HMAC-SHA256 (`crypto/hmac` with `sha256.New`);
* `aesEnc key block`, `aesDec key block` – one AES block operation (`crypto/aes`);
* `sign private msg random`, `verify public msg sig` – ecc/sign_curve25519.go:36-122. -/
structure Crypto where
  dh : Key32 → Key32 → Key32
  basePub : Key32 → Key32
  hmac : Bytes → Bytes → Key32
  aesEnc : Bytes → Block → Block
  aesDec : Bytes → Block → Block
  sign : Key32 → Bytes → Arr 64 → Sig64
  verify : Key32 → Bytes → Sig64 → Bool

/-- Diffie–Hellman agreement: X25519 of my scalar with your base-point multiple
equals X25519 of your scalar with mine. (assumption on the primitive called in kdf/hkdf.go:35 `CalculateSharedSecret`.) -/
def Crypto.DhLaw (C : Crypto) : Prop := ∀ a b, C.dh (C.basePub a) b = C.dh (C.basePub b) a
/-- AES decryption inverts encryption under keys of the three AES sizes. (assumption on crypto/aes, called by cipher/cbc.go.) -/
def Crypto.AesLaw (C : Crypto) : Prop :=
  ∀ k b, (k.length = 16 ∨ k.length = 24 ∨ k.length = 32) → C.aesDec k (C.aesEnc k b) = b
/-- A clamped Curve25519 scalar (RFC 7748): lowest three bits clear, bit 255 clear, bit 254 set. ecc/curve.go:37-39. -/
def IsClamped (k : Key32) : Prop :=
  (∃ b, k.bytes[0]? = some b ∧ b.toNat % 8 = 0) ∧ (∃ b, k.bytes[31]? = some b ∧ 64 ≤ b.toNat ∧ b.toNat < 128)
/-- Signatures made with a clamped private key verify under its public key.  For the repository's `sign` and `verify` this is
a theorem, `C45_sigLaw` in Props/Sign.lean. (ecc/sign_curve25519.go; proved for the code in C45.) -/
def Crypto.SigLaw (C : Crypto) : Prop := ∀ a m r, IsClamped a → C.verify (C.basePub a) m (C.sign a m r) = true

/-- Expand phase of RFC 5869 (golang.org/x/crypto/hkdf `Read`): `count` blocks
T(i) = HMAC(prk, T(i-1) ‖ info ‖ i). Called by kdf/hkdf.go. -/
def hkdfBlocks (C : Crypto) (prk info : Bytes) : Nat → Bytes → Nat → Bytes
  | 0, _, _ => []
  | count + 1, prev, i =>
    let t := (C.hmac prk (prev ++ info ++ [UInt8.ofNat i])).bytes
    t ++ hkdfBlocks C prk info count t (i + 1)

/-- kdf/hkdf.go:18-31 `DeriveSecrets`.  A nil salt is replaced by 32 zero bytes
(RFC 5869 / x/crypto/hkdf); more than 255 blocks is an error. -/
def deriveSecrets (C : Crypto) (ikm : Bytes) (salt : Option Bytes) (info : Bytes) (n : Nat) : Res Bytes :=
  if 255 * 32 < n then .err .kdfTooLong
  else
    let prk := (C.hmac (salt.getD (List.replicate 32 0)) ikm).bytes
    .ok ((hkdfBlocks C prk info ((n + 31) / 32) [] 1).take n)

/-- ecc/ec_pair.go:14-17 `ECKeyPair`; the private half may be nil
(state/record/state_session.go:269). -/
structure KeyPair where
  pub : Key32
  priv : Option Key32
deriving DecidableEq

/-- keys/identity/key_pair.go:22-25 `identity.KeyPair`; both halves are present
(an identity store hands out a complete pair). -/
structure IdKeyPair where
  pub : Key32
  priv : Key32
deriving DecidableEq

/-- ecc/curve.go:15 -/
def djbType : UInt8 := 0x05

/-- ecc/djb_ec_public.go:22-24 `Serialize`. -/
def serPub (k : Key32) : Bytes := djbType :: k.bytes

/-- ecc/curve.go:20-31 `DecodePoint(bytes, 0)`: panics on an empty slice, errors
on an unknown type byte, otherwise copies up to 32 bytes (zero-padding). -/
def decodePoint (b : Bytes) : Res Key32 :=
  match b with
  | [] => .panic
  | t :: rest => if t = djbType then .ok (sliceToArray 32 rest) else .err .badKeyType

/-- ecc/curve.go:37-39 and 68-70: clamp a 32-byte scalar. -/
def clamp (k : Key32) : Key32 :=
  ⟨(k.bytes.modify 0 (· &&& 248)).modify 31 (fun x => (x &&& 127) ||| 64), by simp [k.len]⟩

/-- ecc/curve.go:33-50 `CreateKeyPair`. -/
def createKeyPair (C : Crypto) (priv : Bytes) : KeyPair :=
  let p := clamp (sliceToArray 32 priv)
  ⟨C.basePub p, some p⟩

/-- ecc/curve.go:53-82 `GenerateKeyPair`; the argument is what reading 32 bytes
from the system random source produced (`none` = read error). -/
def generateKeyPair (C : Crypto) (draw : Option Key32) : Res KeyPair :=
  match draw with
  | none => .err .randFailure
  | some r => let p := clamp r; .ok ⟨C.basePub p, some p⟩

end Verif
