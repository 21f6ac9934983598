import Verif.Model.Crypto
/-
cipher/cbc.go and cipher/cipher.go: AES-CBC with padding.
-/
namespace Verif

/-- Byte-wise xor of two blocks (`crypto/cipher` CBC). Called by cipher/cbc.go. -/
def xorBlock (a b : Block) : Block :=
  ⟨List.zipWith (· ^^^ ·) a.bytes b.bytes, by simp [a.len, b.len]⟩

/-- Split a byte string into 16-byte blocks; the caller has checked the length.
`n` is the number of blocks. Called by cipher/cbc.go. -/
def toBlocks : Nat → Bytes → List Block
  | 0, _ => []
  | n + 1, b => sliceToArray 16 (b.take 16) :: toBlocks n (b.drop 16)

/-- Blocks to bytes (`crypto/cipher` CBC, called by cipher/cbc.go). -/
def ofBlocks (l : List Block) : Bytes := (l.map Arr.bytes).flatten

/-- `cipher.NewCBCEncrypter(...).CryptBlocks` of the Go standard library, over blocks. Called by cipher/cbc.go. -/
def cbcEncBlocks (C : Crypto) (key : Bytes) : Block → List Block → List Block
  | _, [] => []
  | iv, p :: ps =>
    let c := C.aesEnc key (xorBlock iv p)
    c :: cbcEncBlocks C key c ps

/-- `cipher.NewCBCDecrypter(...).CryptBlocks`, over blocks. Called by cipher/cbc.go. -/
def cbcDecBlocks (C : Crypto) (key : Bytes) : Block → List Block → List Block
  | _, [] => []
  | iv, c :: cs => xorBlock iv (C.aesDec key c) :: cbcDecBlocks C key c cs

/-- aes.NewCipher accepts 16, 24 and 32 byte keys. Called by cipher/cbc.go. -/
def aesKeyOk (key : Bytes) : Bool :=
  key.length == 16 || key.length == 24 || key.length == 32

/-- `NewCBC(En|De)crypter` panics when the IV length differs from the block size and
`CryptBlocks` panics when the input is not a whole number of blocks. Called by cipher/cbc.go. -/
def cbcCrypt (f : Block → List Block → List Block) (iv data : Bytes) : Res Bytes :=
  if h : iv.length = 16 then
    if data.length % 16 = 0 then
      .ok (ofBlocks (f ⟨iv, h⟩ (toBlocks (data.length / 16) data)))
    else .panic
  else .panic

/-- cipher/cbc.go:86-90 `pad` (value only; the aliasing of `append` is modelled in
`Model/Buffers.lean`). -/
def pad (b : Bytes) (blockSize : Nat) : Bytes :=
  let padding := blockSize - b.length % blockSize
  b ++ List.replicate padding (UInt8.ofNat padding)

/-- cipher/cbc.go:92-101 `unpad`: only compares the last byte with the length;
`src[length-1]` panics on an empty slice. -/
def unpad (src : Bytes) : Res Bytes :=
  match src.getLast? with
  | none => .panic
  | some last =>
    let padLen := last.toNat
    if src.length < padLen then .err .badPadding
    else .ok (src.take (src.length - padLen))

/-- cipher/cbc.go:29-49 `DecryptCbc`; `iv = none` is the nil slice. -/
def decryptCbc (C : Crypto) (iv : Option Bytes) (key ciphertext : Bytes) : Res Bytes :=
  if aesKeyOk key = false then .err .badAesKey
  else if ciphertext.length < 16 then .err .shortCiphertext
  else
    let (iv', ct) := match iv with
      | none => (ciphertext.take 16, ciphertext.drop 16)
      | some v => (v, ciphertext)
    (cbcCrypt (cbcDecBlocks C key) iv' ct).bind unpad

/-- cipher/cbc.go:54-84 `EncryptCbc`; `ivDraw` is the 16 bytes read from the random
source when `iv` is nil (`none` = read error). -/
def encryptCbc (C : Crypto) (ivDraw : Option Block) (iv : Option Bytes) (key plaintext : Bytes) : Res Bytes :=
  let padded := pad plaintext 16
  if padded.length % 16 ≠ 0 then .err .badPadding
  else if aesKeyOk key = false then .err .badAesKey
  else match iv with
    | none =>
      match ivDraw with
      | none => .err .randFailure
      | some v => (cbcCrypt (cbcEncBlocks C key) v.bytes padded).map (v.bytes ++ ·)
    | some v => cbcCrypt (cbcEncBlocks C key) v padded

/-- cipher/cipher.go:67-79 `pkcs7Pad` (block size 16). -/
def pkcs7Pad (b : Bytes) (blockSize : Nat) : Res Bytes :=
  if b.length = 0 then .err .badPadding
  else
    let n := blockSize - b.length % blockSize
    .ok (b ++ List.replicate n (UInt8.ofNat n))

/-- cipher/cipher.go:84-105 `pkcs7Unpad` (block size > 0). -/
def pkcs7Unpad (b : Bytes) (blockSize : Nat) : Res Bytes :=
  match b.getLast? with
  | none => .err .badPadding
  | some c =>
    if b.length % blockSize ≠ 0 then .err .badPadding
    else
      let n := c.toNat
      if n = 0 ∨ b.length < n then .err .badPadding
      else if (b.drop (b.length - n)).all (· == c) then .ok (b.take (b.length - n))
      else .err .badPadding

/-- cipher/cipher.go:34-48 `Encrypt`. -/
def cipherEncrypt (C : Crypto) (iv key plaintext : Bytes) : Res Bytes :=
  if aesKeyOk key = false then .err .badAesKey
  else (pkcs7Pad plaintext 16).bind fun p => cbcCrypt (cbcEncBlocks C key) iv p

/-- cipher/cipher.go:13-30 `Decrypt`. -/
def cipherDecrypt (C : Crypto) (iv key ciphertext : Bytes) : Res Bytes :=
  if aesKeyOk key = false then .err .badAesKey
  else if ciphertext.length < 16 then .err .shortCiphertext
  else (cbcCrypt (cbcDecBlocks C key) iv ciphertext).bind fun p => pkcs7Unpad p 16

end Verif
