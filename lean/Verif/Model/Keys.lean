import Verif.Model.Crypto
/-
keys/chain, keys/message, keys/root, keys/session, ratchet.
-/
namespace Verif

/-- keys/chain/key.go:52-56 `chain.Key` (the kdf field is always kdf.DeriveSecrets). -/
structure ChainKey where
  key : Bytes
  index : UInt32
deriving DecidableEq

/-- keys/message/key.go:64-69 `message.Keys`. -/
structure MsgKeys where
  cipherKey : Bytes
  macKey : Bytes
  iv : Bytes
  index : UInt32
deriving DecidableEq

/-- keys/chain/key.go:107-112 `BaseMaterial`. -/
def ChainKey.baseMaterial (C : Crypto) (c : ChainKey) (seed : Bytes) : Bytes :=
  (C.hmac c.key seed).bytes

/-- keys/chain/key.go:84-87 `NextKey` with chainKeySeed = {0x02}; `index+1` wraps. -/
def ChainKey.next (C : Crypto) (c : ChainKey) : ChainKey :=
  ⟨c.baseMaterial C [0x02], c.index + 1⟩

/-- keys/chain/key.go:90-104,116-128 `MessageKeys` with messageKeySeed = {0x01}.
The kdf error is discarded by the code; with 80 bytes it cannot occur (the `_`
branch is the slice panic that would follow; see `msgKeys_ok` in Proofs/Keys). -/
def ChainKey.msgKeys (C : Crypto) (c : ChainKey) : MsgKeys :=
  match deriveSecrets C (c.baseMaterial C [0x01]) none (ascii "WhisperMessageKeys") 80 with
  | .ok b => ⟨b.take 32, (b.drop 32).take 32, (b.drop 64).take 16, c.index⟩
  | _ => ⟨[], [], [], c.index⟩

/-- keys/session/pair.go:40-43 `session.KeyPair`: root and chain key. -/
structure SessionKeys where
  root : Bytes
  chain : ChainKey
deriving DecidableEq

/-- keys/session/derived_secrets.go:5-12 and the wrapping done by its callers
(chain index 0). -/
def SessionKeys.ofSecrets (b : Bytes) : SessionKeys := ⟨b.take 32, ⟨b.drop 32, 0⟩⟩

/-- keys/root/key.go:41-66 `CreateChain`; dereferencing a nil private key panics. -/
def createChain (C : Crypto) (root : Bytes) (their : Key32) (our : KeyPair) : Res SessionKeys :=
  match our.priv with
  | none => .panic
  | some priv =>
    (deriveSecrets C (C.dh their priv).bytes (some root) (ascii "WhisperRatchet") 64).map SessionKeys.ofSecrets

/-- ratchet/ratchet.go:18-24 `genDiscontinuity`. -/
def discontinuity : Bytes := List.replicate 32 0xFF

/-- ratchet/sender.go:38-46 `SenderParameters`; private halves present (a nil one panics
and is not modelled here: parameters come from GenerateKeyPair and the identity store).
`theirRatchetKey` is carried but not used by the calculation. -/
structure SenderParams where
  ourIdentity : IdKeyPair
  ourBasePriv : Key32
  theirIdentity : Key32
  theirSignedPreKey : Key32
  theirOneTime : Option Key32

/-- ratchet/receiver.go:38-46 `ReceiverParameters`, same conventions. -/
structure ReceiverParams where
  ourIdentity : IdKeyPair
  ourSignedPreKeyPriv : Key32
  ourOneTimePriv : Option Key32
  theirBase : Key32
  theirIdentity : Key32

/-- ratchet/ratchet.go:29-90 `CalculateSenderSession`. -/
def calculateSenderSession (C : Crypto) (p : SenderParams) : Res SessionKeys :=
  let master := discontinuity
    ++ (C.dh p.theirSignedPreKey p.ourIdentity.priv).bytes
    ++ (C.dh p.theirIdentity p.ourBasePriv).bytes
    ++ (C.dh p.theirSignedPreKey p.ourBasePriv).bytes
  let master := match p.theirOneTime with
    | none => master
    | some k => master ++ (C.dh k p.ourBasePriv).bytes
  (deriveSecrets C master none (ascii "WhisperText") 64).map SessionKeys.ofSecrets

/-- ratchet/ratchet.go:94-156 `CalculateReceiverSession`. -/
def calculateReceiverSession (C : Crypto) (p : ReceiverParams) : Res SessionKeys :=
  let master := discontinuity
    ++ (C.dh p.theirIdentity p.ourSignedPreKeyPriv).bytes
    ++ (C.dh p.theirBase p.ourIdentity.priv).bytes
    ++ (C.dh p.theirBase p.ourSignedPreKeyPriv).bytes
  let master := match p.ourOneTimePriv with
    | none => master
    | some k => master ++ (C.dh p.theirBase k).bytes
  (deriveSecrets C master none (ascii "WhisperText") 64).map SessionKeys.ofSecrets

/-- ratchet/symmetric.go:10-18 `SymmetricParameters`. -/
structure SymmetricParams where
  ourBasePub : Key32
  ourBasePriv : Key32
  ourIdentity : IdKeyPair
  theirBase : Key32
  theirIdentity : Key32

/-- `binary.BigEndian.Uint32` of the first four bytes of a serialised public key. ratchet/ratchet.go:193-194. -/
def be32 (b : Bytes) : Nat := (b.take 4).foldl (fun acc x => acc * 256 + x.toNat) 0

/-- ratchet/ratchet.go:192-197 `isSender`: compares only the type byte and the first
three key bytes. -/
def isSender (our their : Key32) : Bool := decide (be32 (serPub our) < be32 (serPub their))

/-- ratchet/ratchet.go:161-187 `CalculateSymmetricSession`. -/
def calculateSymmetricSession (C : Crypto) (p : SymmetricParams) : Res SessionKeys :=
  if isSender p.ourBasePub p.theirBase then
    calculateSenderSession C
      { ourIdentity := p.ourIdentity, ourBasePriv := p.ourBasePriv,
        theirIdentity := p.theirIdentity, theirSignedPreKey := p.theirBase, theirOneTime := none }
  else
    calculateReceiverSession C
      { ourIdentity := p.ourIdentity, ourSignedPreKeyPriv := p.ourBasePriv, ourOneTimePriv := none,
        theirBase := p.theirBase, theirIdentity := p.theirIdentity }

end Verif
