import Verif.Model.Keys
/-
protocol/*.go: the four message types, generic in the serializer interface.
-/
namespace Verif

/-- protocol/ciphertext_message.go:8-11. -/
def unsupportedVersion : Nat := 1
/-- protocol/ciphertext_message.go:10. -/
def currentVersion : Nat := 3
/-- protocol/signal_message.go:15. -/
def macLength : Nat := 8

/-- protocol/signal_message.go:108-115 `SignalMessageStructure`; slices the code compares
with nil are `Option`. -/
structure SMStruct where
  ratchetKey : Option Bytes
  counter : UInt32
  previousCounter : UInt32
  cipherText : Option Bytes
  version : Int
  mac : Option Bytes
deriving DecidableEq

/-- protocol/prekey_signal_message.go:101-109 `PreKeySignalMessageStructure`. -/
structure PKStruct where
  registrationId : UInt32
  preKeyId : Option OptU32
  signedPreKeyId : UInt32
  baseKey : Option Bytes
  identityKey : Option Bytes
  message : Option Bytes
  version : Int
deriving DecidableEq

/-- protocol/sender_key_message.go:96-102 `SenderKeyMessageStructure`. -/
structure SKStruct where
  id : UInt32
  iteration : UInt32
  cipherText : Option Bytes
  version : UInt32
  signature : Option Bytes
deriving DecidableEq

/-- protocol/sender_key_distribution_message.go:96-102. -/
structure SKDStruct where
  id : UInt32
  iteration : UInt32
  chainKey : Option Bytes
  signingKey : Option Bytes
  version : UInt32
deriving DecidableEq

/-- A serializer interface (protocol/signal_message.go:20-23 and its siblings):
`Serialize` (which may panic, e.g. serialize/proto.go:116) and `Deserialize`. -/
structure Ser (σ : Type) where
  ser : σ → Res Bytes
  de : Bytes → Res σ

/-- protocol/signal_message.go:119-123 `SignalMessage`. -/
structure SignalMsg where
  struct : SMStruct
  senderRatchetKey : Key32
deriving DecidableEq

/-- protocol/prekey_signal_message.go:113-119 `PreKeySignalMessage`. -/
structure PreKeyMsg where
  struct : PKStruct
  baseKey : Key32
  identityKey : Key32
  message : SignalMsg
deriving DecidableEq

/-- Version check shared by the four `New…FromStruct` constructors, e.g.
protocol/signal_message.go:41-50. -/
def checkVersion (v : Int) : Res Unit :=
  if v ≤ (unsupportedVersion : Int) then .err .legacyVersion
  else if (currentVersion : Int) < v then .err .unknownVersion
  else .ok ()

/-- protocol/signal_message.go:39-69 `NewSignalMessageFromStruct`. -/
def newSignalMessageFromStruct (st : SMStruct) : Res SignalMsg :=
  (checkVersion st.version).bind fun _ =>
    match st.cipherText, st.ratchetKey with
    | some _, some rk => (decodePoint rk).map fun k => ⟨st, k⟩
    | _, _ => .err .incomplete

/-- protocol/signal_message.go:27-35 `NewSignalMessageFromBytes`. -/
def newSignalMessageFromBytes (S : Ser SMStruct) (b : Bytes) : Res SignalMsg :=
  (S.de b).bind newSignalMessageFromStruct

/-- protocol/signal_message.go:213-228 `getMac`: identities are written only for
version ≥ 3 (a nil identity then panics); truncated to 8 bytes. -/
def getMac (C : Crypto) (version : Int) (sender receiver : Option Key32) (macKey serialized : Bytes) : Res Bytes :=
  if 3 ≤ version then
    match sender, receiver with
    | some s, some r => trim (C.hmac macKey (serPub s ++ serPub r ++ serialized)).bytes macLength
    | _, _ => .panic
  else trim (C.hmac macKey serialized).bytes macLength

/-- protocol/signal_message.go:72-104 `NewSignalMessage`. -/
def newSignalMessage (C : Crypto) (S : Ser SMStruct) (version : Int) (counter previousCounter : UInt32)
    (macKey : Bytes) (senderRatchetKey : Key32) (ciphertext : Bytes) (sender receiver : Option Key32) :
    Res SignalMsg :=
  let st : SMStruct :=
    { ratchetKey := some (serPub senderRatchetKey), counter := counter, previousCounter := previousCounter,
      cipherText := some ciphertext, version := 0, mac := none }
  (S.ser st).bind fun body =>
    (getMac C version sender receiver macKey (itoa version ++ body)).bind fun mac =>
      newSignalMessageFromStruct { st with mac := some mac, version := version }

/-- protocol/signal_message.go:150-192 `VerifyMac`: rebuild the structure without mac and
version, re-serialise and compare (`hmac.Equal` compares contents, a nil mac is empty). -/
def SignalMsg.verifyMac (C : Crypto) (S : Ser SMStruct) (m : SignalMsg) (version : Int)
    (sender receiver : Option Key32) (macKey : Bytes) : Res Unit :=
  (newSignalMessageFromStruct m.struct).bind fun m' =>
    (S.ser { m'.struct with mac := none, version := 0 }).bind fun body =>
      (getMac C version sender receiver macKey (itoa m.struct.version ++ body)).bind fun ours =>
        if ours = m.struct.mac.getD [] then .ok () else .err .badMac

/-- protocol/prekey_signal_message.go:35-81 `NewPreKeySignalMessageFromStruct`. -/
def newPreKeyMessageFromStruct (S : Ser SMStruct) (st : PKStruct) : Res PreKeyMsg :=
  (checkVersion st.version).bind fun _ =>
    match st.baseKey, st.identityKey, st.message with
    | some bk, some ik, some msg =>
      (decodePoint bk).bind fun base =>
        (decodePoint ik).bind fun idk =>
          (newSignalMessageFromBytes S msg).map fun m => ⟨st, base, idk, m⟩
    | _, _, _ => .err .incomplete

/-- protocol/prekey_signal_message.go:22-31 `NewPreKeySignalMessageFromBytes`. -/
def newPreKeyMessageFromBytes (P : Ser PKStruct) (S : Ser SMStruct) (b : Bytes) : Res PreKeyMsg :=
  (P.de b).bind (newPreKeyMessageFromStruct S)

/-- protocol/prekey_signal_message.go:84-97 `NewPreKeySignalMessage`. -/
def newPreKeyMessage (S : Ser SMStruct) (version : Int) (registrationId : UInt32) (preKeyId : Option OptU32)
    (signedPreKeyId : UInt32) (baseKey : Key32) (identityKey : Option Key32) (message : SignalMsg) : Res PreKeyMsg :=
  match identityKey with
  | none => .panic
  | some ik =>
    (S.ser message.struct).bind fun msg =>
      newPreKeyMessageFromStruct S
        { version := version, registrationId := registrationId, preKeyId := preKeyId,
          signedPreKeyId := signedPreKeyId, baseKey := some (serPub baseKey),
          identityKey := some (serPub ik), message := some msg }

/-- protocol/sender_key_message.go:105-112 `SenderKeyMessage`. -/
structure SenderKeyMsg where
  version : UInt32
  keyId : UInt32
  iteration : UInt32
  ciphertext : Option Bytes
  signature : Option Bytes
deriving DecidableEq

/-- protocol/sender_key_message.go:35-67 `NewSenderKeyMessageFromStruct`. -/
def newSenderKeyMessageFromStruct (st : SKStruct) : Res SenderKeyMsg :=
  (checkVersion st.version.toNat).bind fun _ =>
    match st.cipherText with
    | none => .err .incomplete
    | some _ => .ok ⟨st.version, st.id, st.iteration, st.cipherText, st.signature⟩

/-- protocol/sender_key_message.go:21-31. -/
def newSenderKeyMessageFromBytes (S : Ser SKStruct) (b : Bytes) : Res SenderKeyMsg :=
  (S.de b).bind newSenderKeyMessageFromStruct

/-- protocol/sender_key_message.go:137-146 `Serialize` (without signature). -/
def SenderKeyMsg.serialize (S : Ser SKStruct) (m : SenderKeyMsg) : Res Bytes :=
  S.ser { id := m.keyId, iteration := m.iteration, cipherText := m.ciphertext, version := m.version, signature := none }

/-- protocol/sender_key_message.go:151-161 `SignedSerialize`. -/
def SenderKeyMsg.signedSerialize (S : Ser SKStruct) (m : SenderKeyMsg) : Res Bytes :=
  S.ser { id := m.keyId, iteration := m.iteration, cipherText := m.ciphertext, version := m.version,
          signature := m.signature }

/-- protocol/sender_key_message.go:164-166 `Signature`. -/
def SenderKeyMsg.sig (m : SenderKeyMsg) : Sig64 := sliceToArray 64 (m.signature.getD [])

/-- protocol/sender_key_message.go:70-93 `NewSenderKeyMessage`; a nil signing key panics;
`rand` is the 64 random bytes used by the signature (ecc/curve.go:107-120; a failing
random source leaves them zero, the code ignores the error). -/
def newSenderKeyMessage (C : Crypto) (S : Ser SKStruct) (keyId iteration : UInt32) (ciphertext : Bytes)
    (signKey : Option Key32) (rand : Arr 64) : Res SenderKeyMsg :=
  match signKey with
  | none => .panic
  | some k =>
    let m : SenderKeyMsg := ⟨UInt32.ofNat currentVersion, keyId, iteration, some ciphertext, none⟩
    (m.serialize S).map fun b => { m with signature := some (C.sign k b rand).bytes }

/-- protocol/sender_key_distribution_message.go:105-112 `SenderKeyDistributionMessage`. -/
structure SKDMsg where
  id : UInt32
  iteration : UInt32
  chainKey : Option Bytes
  version : UInt32
  signatureKey : Key32
deriving DecidableEq

/-- protocol/sender_key_distribution_message.go:34-78 `NewSenderKeyDistributionMessageFromStruct`. -/
def newSKDMFromStruct (st : SKDStruct) : Res SKDMsg :=
  (checkVersion st.version.toNat).bind fun _ =>
    match st.signingKey, st.chainKey with
    | some sk, some _ =>
      (decodePoint sk).map fun k => ⟨st.id, st.iteration, st.chainKey, st.version, k⟩
    | _, _ => .err .incomplete

/-- protocol/sender_key_distribution_message.go:20-30. -/
def newSKDMFromBytes (S : Ser SKDStruct) (b : Bytes) : Res SKDMsg :=
  (S.de b).bind newSKDMFromStruct

/-- protocol/sender_key_distribution_message.go:81-92 (the version field stays 0). -/
def newSKDM (id iteration : UInt32) (chainKey : Bytes) (signatureKey : Key32) : SKDMsg :=
  ⟨id, iteration, some chainKey, 0, signatureKey⟩

/-- protocol/sender_key_distribution_message.go:136-145 `Serialize`: always CurrentVersion. -/
def SKDMsg.serialize (S : Ser SKDStruct) (m : SKDMsg) : Res Bytes :=
  S.ser { id := m.id, iteration := m.iteration, chainKey := m.chainKey,
          signingKey := some (serPub m.signatureKey), version := UInt32.ofNat currentVersion }

end Verif
