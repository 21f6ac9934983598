import Verif.Model.Basic
/-
The key schedule of the protocol, written from RFC 5869 and the Double Ratchet / X3DH descriptions and independent of the
model: everything is a function of a keyed hash `H key message` with 32-byte results.
-/
namespace Verif.Schedule

variable (H : Bytes → Bytes → Bytes)

/-- RFC 5869, 2.3: `T(0)` is empty and `T(i) = HMAC(PRK, T(i-1) | info | i)`. -/
def T (prk info : Bytes) : Nat → Bytes
  | 0 => []
  | i + 1 => H prk (T prk info i ++ info ++ [UInt8.ofNat (i + 1)])

/-- `T(1) | T(2) | … | T(n)`. -/
def blocks (prk info : Bytes) : Nat → Bytes
  | 0 => []
  | n + 1 => blocks prk info n ++ T H prk info (n + 1)

/-- RFC 5869 HKDF with a 32-byte hash: extract with the salt, expand to `len` bytes. -/
def hkdf (salt ikm info : Bytes) (len : Nat) : Bytes := (blocks H (H salt ikm) info ((len + 31) / 32)).take len

/-- "Salt not provided": 32 zero bytes. -/
def noSalt : Bytes := List.replicate 32 0

/-- The chain key after `n` messages: `CK(n+1) = HMAC(CK(n), 0x02)`. -/
def chainKey (ck : Bytes) : Nat → Bytes
  | 0 => ck
  | n + 1 => H (chainKey ck n) [2]

/-- The 80 bytes of key material of message `n`: HKDF of `HMAC(CK(n), 0x01)`. -/
def messageMaterial (ck : Bytes) (n : Nat) : Bytes :=
  hkdf H noSalt (H (chainKey H ck n) [1]) (ascii "WhisperMessageKeys") 80

/-- A root step: the old root key is the salt, the Diffie-Hellman output the input; 32 bytes of new root key, 32 bytes of
chain key. -/
def rootStep (root dhOut : Bytes) : Bytes × Bytes :=
  let okm := hkdf H root dhOut (ascii "WhisperRatchet") 64
  (okm.take 32, okm.drop 32)

/-- X3DH: `F | DH1 | DH2 | DH3 [| DH4]` with `F` 32 bytes 0xFF; root key and first chain key. -/
def x3dh (dh1 dh2 dh3 : Bytes) (dh4 : Option Bytes) : Bytes × Bytes :=
  let okm := hkdf H noSalt (List.replicate 32 0xFF ++ dh1 ++ dh2 ++ dh3 ++ dh4.getD []) (ascii "WhisperText") 64
  (okm.take 32, okm.drop 32)

/-- Group messages: 48 bytes, IV then cipher key. -/
def groupMaterial (ck : Bytes) (n : Nat) : Bytes :=
  hkdf H noSalt (H (chainKey H ck n) [1]) (ascii "WhisperGroup") 48

end Verif.Schedule
