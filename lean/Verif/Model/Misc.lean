import Verif.Model.Cbc
import Verif.Model.Session
/-
protocol/signal_protocol_address.go, keys/identity/key.go, fingerprint/display.go and
provision/cipher.go.
-/
namespace Verif

/-- protocol/signal_protocol_address.go:36-38 `String`, as UTF-8 bytes (a Go string is a byte
string; here the name is a Lean string, i.e. valid UTF-8). -/
def Addr.str (a : Addr) : Bytes := a.name.toUTF8.data.toList ++ [58] ++ natDec a.deviceId.toNat

/-- Same rendering for a name given as raw bytes: Go strings may hold any bytes. protocol/signal_protocol_address.go:36-38. -/
def addrBytes (name : Bytes) (deviceId : UInt32) : Bytes := name ++ [58] ++ natDec deviceId.toNat

/-- One lower-case hexadecimal digit (`encoding/hex`). Called by keys/identity/key.go:37. -/
def hexDigit (n : Nat) : UInt8 := if n < 10 then UInt8.ofNat (48 + n) else UInt8.ofNat (87 + n)

/-- `hex.EncodeToString`. Called by keys/identity/key.go:37. -/
def hexEncode (b : Bytes) : Bytes := b.flatMap fun x => [hexDigit (x.toNat / 16), hexDigit (x.toNat % 16)]

/-- keys/identity/key.go:36-38 `Fingerprint`. -/
def identityFingerprint (k : Key32) : Bytes := hexEncode (serPub k)

/-- `fmt.Sprintf("%05d", n)`. Called by fingerprint/display.go:45. -/
def sprintf05d (n : Nat) : Bytes :=
  let d := natDec n
  List.replicate (5 - d.length) 48 ++ d

/-- fingerprint/display.go:43-46 `encodedChunk`. -/
def encodedChunk (hash : Bytes) (offset : Nat) : Res Bytes :=
  (bytes5ToInt64 hash offset).map fun v => sprintf05d (v % 100000)

/-- fingerprint/display.go:33-40 `displayStringFor`. -/
def displayStringFor (fp : Bytes) : Res Bytes :=
  (encodedChunk fp 0).bind fun a => (encodedChunk fp 5).bind fun b => (encodedChunk fp 10).bind fun c =>
    (encodedChunk fp 15).bind fun d => (encodedChunk fp 20).bind fun e => (encodedChunk fp 25).map fun f =>
      a ++ b ++ c ++ d ++ e ++ f

/-- Go's `<` on strings: lexicographic on bytes. Used by fingerprint/display.go. -/
def bytesLt : Bytes → Bytes → Bool
  | [], [] => false
  | [], _ :: _ => true
  | _ :: _, [] => false
  | x :: xs, y :: ys => if x < y then true else if y < x then false else bytesLt xs ys

/-- fingerprint/display.go:10-15 `NewDisplay` followed by 24-29 `DisplayText`. -/
def displayText (localFp remoteFp : Bytes) : Res Bytes :=
  (displayStringFor localFp).bind fun l => (displayStringFor remoteFp).map fun r =>
    if bytesLt l r then l ++ r else r ++ l

/-! ### Provisioning -/

/-- provision/cipher.go:52-80 `Decrypt` after base64 and JSON decoding of the envelope
(`publicKey`, `body`) and of the private key.  `DecodePoint`'s error is ignored and the nil key
dereferenced (panic); a wrong version number dereferences a nil error (panic); the slice
expressions panic on short bodies (they are evaluated in the order of the code). -/
def provisionDecrypt (C : Crypto) (ourPrivateKey publicKey body : Bytes) : Res Bytes :=
  match decodePoint publicKey with
  | .err _ => .panic
  | .panic => .panic
  | .ok their =>
    match body with
    | [] => .panic
    | v :: _ =>
      if v ≠ 1 then .panic
      else if body.length < 17 then .panic
      else if body.length < 32 then .panic
      else if body.length - 32 < 17 then .panic
      else
        let iv := (body.drop 1).take 16
        let mac := body.drop (body.length - 32)
        let ivAndCiphertext := body.take (body.length - 32)
        let cipherText := (body.take (body.length - 32)).drop 17
        let secret := C.dh their (sliceToArray 32 ourPrivateKey)
        (deriveSecrets C secret.bytes none (ascii "Mixin Provisioning Message") 64).bind fun d =>
          let aesKey := d.take 32
          let macKey := d.drop 32
          if (C.hmac macKey ivAndCiphertext).bytes = mac then decryptCbc C (some iv) aesKey cipherText
          else .err .badMac

end Verif
