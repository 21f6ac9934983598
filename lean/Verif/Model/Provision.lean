import Verif.Model.Misc
import Verif.Model.JsonTypes
/-
provision/cipher.go: `Decrypt` from its two text arguments.
-/
namespace Verif

/-- provision/cipher.go:26-29 `ProvisionEnvelope` (JSON tags public_key, body). -/
structure Envelope where
  publicKey : Option Bytes
  body : Option Bytes
deriving DecidableEq

/-- The JSON names of provision/cipher.go:26-29. -/
def envelopeNames : List Bytes := [ascii "public_key", ascii "body"]

/-- What a sender writes for an envelope (`json.Marshal` of provision/cipher.go:26-29; the repository only reads envelopes). -/
def Envelope.toJson (e : Envelope) : JVal := jStruct [("public_key", jBytes e.publicKey), ("body", jBytes e.body)]

/-- provision/cipher.go:48-51 `json.Unmarshal` into the envelope. -/
def Envelope.ofJson (m : List (Bytes × JVal)) : Option Envelope := do
  let publicKey ← bytesField envelopeNames m "public_key"
  let body ← bytesField envelopeNames m "body"
  return { publicKey, body }

/-- provision/cipher.go:37-80 `Decrypt`: base64 of the private key, base64 and JSON of the envelope, then `provisionDecrypt` (a nil slice is
empty). -/
def provisionDecryptText (C : Crypto) (privateKey content : Bytes) : Res Bytes :=
  match b64Dec privateKey with
  | none => .err .badBase64
  | some ourPrivateKey =>
    match b64Dec content with
    | none => .err .badBase64
    | some envelopeDecode =>
      match unmarshalJson Envelope.ofJson envelopeDecode with
      | none => .err .badJson
      | some e => provisionDecrypt C ourPrivateKey (e.publicKey.getD []) (e.body.getD [])

end Verif
