import Verif.Model.Json
import Verif.Model.Store
import Verif.Model.Groups
import Verif.Model.PreKeys
/-
serialize/json.go: the JSON serializer of every structure.  `json.Marshal` and `json.Unmarshal` are modelled in Model/Json.lean; here are the
structures' fields, as encoding/json sees them: exported fields in order of declaration, without tags.
-/
namespace Verif

/-! ### Messages -/

/-- protocol/signal_message.go:108-115 -/
def smNames : List Bytes := [ascii "RatchetKey", ascii "Counter", ascii "PreviousCounter", ascii "CipherText", ascii "Version", ascii "Mac"]
/-- The structure of protocol/signal_message.go:108-115 as `json.Marshal` (serialize/json.go) writes it. -/
def SMStruct.toJson (st : SMStruct) : JVal :=
  jStruct [("RatchetKey", jBytes st.ratchetKey), ("Counter", jU32 st.counter), ("PreviousCounter", jU32 st.previousCounter),
    ("CipherText", jBytes st.cipherText), ("Version", jInt st.version), ("Mac", jBytes st.mac)]
/-- `json.Unmarshal` (serialize/json.go) into the structure of protocol/signal_message.go:108-115. -/
def SMStruct.ofJson (m : List (Bytes × JVal)) : Option SMStruct := do
  let ratchetKey ← bytesField smNames m "RatchetKey"
  let counter ← jsonU32 smNames m "Counter"
  let previousCounter ← jsonU32 smNames m "PreviousCounter"
  let cipherText ← bytesField smNames m "CipherText"
  let version ← intField smNames m "Version"
  let mac ← bytesField smNames m "Mac"
  return { ratchetKey, counter, previousCounter, cipherText, version, mac }

/-- util/optional/int.go:14-17 -/
def optNames : List Bytes := [ascii "Value", ascii "IsEmpty"]
/-- The structure of util/optional/int.go:14-17 as `json.Marshal` (serialize/json.go) writes it. -/
def OptU32.toJson (o : OptU32) : JVal := jStruct [("Value", jU32 o.value), ("IsEmpty", .bool o.isEmpty)]
/-- `json.Unmarshal` (serialize/json.go) into the structure of util/optional/int.go:14-17. -/
def OptU32.ofJson (m : List (Bytes × JVal)) : Option OptU32 := do
  let value ← jsonU32 optNames m "Value"
  let isEmpty ← boolField optNames m "IsEmpty"
  return { value, isEmpty }

/-- protocol/prekey_signal_message.go:101-109 -/
def pkNames : List Bytes := [ascii "RegistrationID", ascii "PreKeyID", ascii "SignedPreKeyID", ascii "BaseKey", ascii "IdentityKey",
  ascii "Message", ascii "Version"]
/-- The structure of protocol/prekey_signal_message.go:101-109 as `json.Marshal` (serialize/json.go) writes it. -/
def PKStruct.toJson (st : PKStruct) : JVal :=
  jStruct [("RegistrationID", jU32 st.registrationId), ("PreKeyID", jPtr OptU32.toJson st.preKeyId), ("SignedPreKeyID", jU32 st.signedPreKeyId),
    ("BaseKey", jBytes st.baseKey), ("IdentityKey", jBytes st.identityKey), ("Message", jBytes st.message), ("Version", jInt st.version)]
/-- `json.Unmarshal` (serialize/json.go) into the structure of protocol/prekey_signal_message.go:101-109. -/
def PKStruct.ofJson (m : List (Bytes × JVal)) : Option PKStruct := do
  let registrationId ← jsonU32 pkNames m "RegistrationID"
  let preKeyId ← ptrField OptU32.ofJson pkNames m "PreKeyID"
  let signedPreKeyId ← jsonU32 pkNames m "SignedPreKeyID"
  let baseKey ← bytesField pkNames m "BaseKey"
  let identityKey ← bytesField pkNames m "IdentityKey"
  let message ← bytesField pkNames m "Message"
  let version ← intField pkNames m "Version"
  return { registrationId, preKeyId, signedPreKeyId, baseKey, identityKey, message, version }

/-- protocol/sender_key_message.go:96-102 -/
def skNames : List Bytes := [ascii "ID", ascii "Iteration", ascii "CipherText", ascii "Version", ascii "Signature"]
/-- The structure of protocol/sender_key_message.go:96-102 as `json.Marshal` (serialize/json.go) writes it. -/
def SKStruct.toJson (st : SKStruct) : JVal :=
  jStruct [("ID", jU32 st.id), ("Iteration", jU32 st.iteration), ("CipherText", jBytes st.cipherText), ("Version", jU32 st.version),
    ("Signature", jBytes st.signature)]
/-- `json.Unmarshal` (serialize/json.go) into the structure of protocol/sender_key_message.go:96-102. -/
def SKStruct.ofJson (m : List (Bytes × JVal)) : Option SKStruct := do
  let id ← jsonU32 skNames m "ID"
  let iteration ← jsonU32 skNames m "Iteration"
  let cipherText ← bytesField skNames m "CipherText"
  let version ← jsonU32 skNames m "Version"
  let signature ← bytesField skNames m "Signature"
  return { id, iteration, cipherText, version, signature }

/-- protocol/sender_key_distribution_message.go:96-102 -/
def skdNames : List Bytes := [ascii "ID", ascii "Iteration", ascii "ChainKey", ascii "SigningKey", ascii "Version"]
/-- The structure of protocol/sender_key_distribution_message.go:96-102 as `json.Marshal` (serialize/json.go) writes it. -/
def SKDStruct.toJson (st : SKDStruct) : JVal :=
  jStruct [("ID", jU32 st.id), ("Iteration", jU32 st.iteration), ("ChainKey", jBytes st.chainKey), ("SigningKey", jBytes st.signingKey),
    ("Version", jU32 st.version)]
/-- `json.Unmarshal` (serialize/json.go) into the structure of protocol/sender_key_distribution_message.go:96-102. -/
def SKDStruct.ofJson (m : List (Bytes × JVal)) : Option SKDStruct := do
  let id ← jsonU32 skdNames m "ID"
  let iteration ← jsonU32 skdNames m "Iteration"
  let chainKey ← bytesField skdNames m "ChainKey"
  let signingKey ← bytesField skdNames m "SigningKey"
  let version ← jsonU32 skdNames m "Version"
  return { id, iteration, chainKey, signingKey, version }

/-- A serializer built from the two directions (serialize/json.go: `Serialize` ignores the error of `json.Marshal`, which cannot
occur for these types). -/
def jsonSer {σ : Type} (to : σ → JVal) (of : List (Bytes × JVal) → Option σ) : Ser σ :=
  ⟨fun st => .ok (to st).enc, fun b => match unmarshalJson of b with
    | some st => .ok st
    | none => .err .badJson⟩

/-- serialize/json.go:33-56 `JSONSignalMessageSerializer` -/
def jsonSM : Ser SMStruct := jsonSer SMStruct.toJson SMStruct.ofJson
/-- serialize/json.go:60-83 `JSONPreKeySignalMessageSerializer` -/
def jsonPK : Ser PKStruct := jsonSer PKStruct.toJson PKStruct.ofJson
/-- serialize/json.go:224-250 `JSONSenderKeyMessageSerializer` -/
def jsonSK : Ser SKStruct := jsonSer SKStruct.toJson SKStruct.ofJson
/-- serialize/json.go:196-222 `JSONSenderKeyDistributionMessageSerializer` -/
def jsonSKD : Ser SKDStruct := jsonSer SKDStruct.toJson SKDStruct.ofJson

/-! ### Prekey records -/

/-- state/record/prekey.go:60-64 -/
def preKeyNames : List Bytes := [ascii "ID", ascii "PublicKey", ascii "PrivateKey"]
/-- The structure of state/record/prekey.go:60-64 as `json.Marshal` (serialize/json.go) writes it. -/
def PreKeyStruct.toJson (st : PreKeyStruct) : JVal :=
  jStruct [("ID", jU32 st.id), ("PublicKey", jBytes (some st.pub)), ("PrivateKey", jBytes (some st.priv))]
/-- `json.Unmarshal` (serialize/json.go) into the structure of state/record/prekey.go:60-64. -/
def PreKeyStruct.ofJson (m : List (Bytes × JVal)) : Option PreKeyStruct := do
  let id ← jsonU32 preKeyNames m "ID"
  let pub ← bytesField preKeyNames m "PublicKey"
  let priv ← bytesField preKeyNames m "PrivateKey"
  return { id, pub := pub.getD [], priv := priv.getD [] }

/-- serialize/json.go:114-137 `JSONPreKeyRecordSerializer` -/
def jsonPreKey : Ser PreKeyStruct := jsonSer PreKeyStruct.toJson PreKeyStruct.ofJson

/-- state/record/signed_prekey.go:70-76 -/
def signedPreKeyNames : List Bytes := [ascii "ID", ascii "PublicKey", ascii "PrivateKey", ascii "Signature", ascii "Timestamp"]
/-- The structure of state/record/signed_prekey.go:70-76 as `json.Marshal` (serialize/json.go) writes it. -/
def SignedPreKeyStruct.toJson (st : SignedPreKeyStruct) : JVal :=
  jStruct [("ID", jU32 st.id), ("PublicKey", jBytes (some st.pub)), ("PrivateKey", jBytes (some st.priv)),
    ("Signature", jBytes (some st.signature)), ("Timestamp", jInt st.timestamp.toInt)]
/-- `json.Unmarshal` (serialize/json.go) into the structure of state/record/signed_prekey.go:70-76. -/
def SignedPreKeyStruct.ofJson (m : List (Bytes × JVal)) : Option SignedPreKeyStruct := do
  let id ← jsonU32 signedPreKeyNames m "ID"
  let pub ← bytesField signedPreKeyNames m "PublicKey"
  let priv ← bytesField signedPreKeyNames m "PrivateKey"
  let signature ← bytesField signedPreKeyNames m "Signature"
  let timestamp ← intField signedPreKeyNames m "Timestamp"
  return { id, pub := pub.getD [], priv := priv.getD [], signature := signature.getD [], timestamp := Int64.ofInt timestamp }

/-- serialize/json.go:87-110 `JSONSignedPreKeyRecordSerializer` -/
def jsonSignedPreKey : Ser SignedPreKeyStruct := jsonSer SignedPreKeyStruct.toJson SignedPreKeyStruct.ofJson

/-- state/record/prekey.go:18-26 `NewPreKeyFromBytes` -/
def PreKey.ofBytes (b : Bytes) : Res PreKey := (jsonPreKey.de b).map PreKey.ofStruct
/-- state/record/prekey.go:87-90 `Serialize` -/
def PreKey.serialize (p : PreKey) : Res Bytes := jsonPreKey.ser p.struct
/-- state/record/signed_prekey.go:18-26 `NewSignedPreKeyFromBytes` -/
def SignedPreKey.ofBytes (b : Bytes) : Res SignedPreKey := (jsonSignedPreKey.de b).map SignedPreKey.ofStruct
/-- state/record/signed_prekey.go:109-112 `Serialize` -/
def SignedPreKey.serialize (p : SignedPreKey) : Res Bytes := jsonSignedPreKey.ser p.struct

/-! ### Session records -/

/-- keys/chain/key.go:44-47 -/
def chainKeyNames : List Bytes := [ascii "Key", ascii "Index"]
/-- The structure of keys/chain/key.go:44-47 as `json.Marshal` (serialize/json.go) writes it. -/
def ChainKey.toJson (k : ChainKey) : JVal := jStruct [("Key", jBytes (some k.key)), ("Index", jU32 k.index)]
/-- `json.Unmarshal` (serialize/json.go) into the structure of keys/chain/key.go:44-47. -/
def ChainKey.ofJson (m : List (Bytes × JVal)) : Option ChainKey := do
  let key ← bytesField chainKeyNames m "Key"
  let index ← jsonU32 chainKeyNames m "Index"
  return { key := key.getD [], index }

/-- keys/message/key.go:54-59 -/
def msgKeysNames : List Bytes := [ascii "CipherKey", ascii "MacKey", ascii "IV", ascii "Index"]
/-- The structure of keys/message/key.go:54-59 as `json.Marshal` (serialize/json.go) writes it. -/
def MsgKeys.toJson (k : MsgKeys) : JVal :=
  jStruct [("CipherKey", jBytes (some k.cipherKey)), ("MacKey", jBytes (some k.macKey)), ("IV", jBytes (some k.iv)), ("Index", jU32 k.index)]
/-- `json.Unmarshal` (serialize/json.go) into the structure of keys/message/key.go:54-59. -/
def MsgKeys.ofJson (m : List (Bytes × JVal)) : Option MsgKeys := do
  let cipherKey ← bytesField msgKeysNames m "CipherKey"
  let macKey ← bytesField msgKeysNames m "MacKey"
  let iv ← bytesField msgKeysNames m "IV"
  let index ← jsonU32 msgKeysNames m "Index"
  return { cipherKey := cipherKey.getD [], macKey := macKey.getD [], iv := iv.getD [], index }

/-- state/record/state_chain.go:70-75 as it comes out of the decoder: pointers may be nil. -/
structure RawChain where
  ratchetPub : Bytes
  ratchetPriv : Option Bytes
  chainKey : Option ChainKey
  msgKeys : List (Option MsgKeys)

/-- Field names of state/record/state_chain.go:70-75. -/
def chainNames : List Bytes := [ascii "SenderRatchetKeyPublic", ascii "SenderRatchetKeyPrivate", ascii "ChainKey", ascii "MessageKeys"]
/-- The structure of state/record/state_chain.go:70-75 as `json.Marshal` (serialize/json.go) writes it. -/
def ChainStruct.toJson (c : ChainStruct) : JVal :=
  jStruct [("SenderRatchetKeyPublic", jBytes (some c.ratchetPub)), ("SenderRatchetKeyPrivate", jBytes c.ratchetPriv),
    ("ChainKey", c.chainKey.toJson), ("MessageKeys", .arr (c.msgKeys.map MsgKeys.toJson))]
/-- `json.Unmarshal` (serialize/json.go) into the structure of state/record/state_chain.go:70-75. -/
def RawChain.ofJson (m : List (Bytes × JVal)) : Option RawChain := do
  let ratchetPub ← bytesField chainNames m "SenderRatchetKeyPublic"
  let ratchetPriv ← bytesField chainNames m "SenderRatchetKeyPrivate"
  let chainKey ← ptrField ChainKey.ofJson chainNames m "ChainKey"
  let msgKeys ← sliceField MsgKeys.ofJson chainNames m "MessageKeys"
  return { ratchetPub := ratchetPub.getD [], ratchetPriv, chainKey, msgKeys }

/-- state/record/state_pending_prekey.go:38-42 -/
def pendingPreKeyNames : List Bytes := [ascii "PreKeyID", ascii "SignedPreKeyID", ascii "BaseKey"]
/-- The structure of state/record/state_pending_prekey.go:38-42 as `json.Marshal` (serialize/json.go) writes it. -/
def PendingPreKeyStruct.toJson (p : PendingPreKeyStruct) : JVal :=
  jStruct [("PreKeyID", jPtr OptU32.toJson p.preKeyId), ("SignedPreKeyID", jU32 p.signedPreKeyId), ("BaseKey", jBytes (some p.baseKey))]
/-- `json.Unmarshal` (serialize/json.go) into the structure of state/record/state_pending_prekey.go:38-42. -/
def PendingPreKeyStruct.ofJson (m : List (Bytes × JVal)) : Option PendingPreKeyStruct := do
  let preKeyId ← ptrField OptU32.ofJson pendingPreKeyNames m "PreKeyID"
  let signedPreKeyId ← jsonU32 pendingPreKeyNames m "SignedPreKeyID"
  let baseKey ← bytesField pendingPreKeyNames m "BaseKey"
  return { preKeyId, signedPreKeyId, baseKey := baseKey.getD [] }

/-- state/record/state_pending_key_exchange.go:59-67 -/
def pendingKeyExchangeNames : List Bytes := [ascii "Sequence", ascii "LocalBaseKeyPublic", ascii "LocalBaseKeyPrivate", ascii "LocalRatchetKeyPublic",
  ascii "LocalRatchetKeyPrivate", ascii "LocalIdentityKeyPublic", ascii "LocalIdentityKeyPrivate"]
/-- The structure of state/record/state_pending_key_exchange.go:59-67 as `json.Marshal` (serialize/json.go) writes it. -/
def PendingKeyExchangeStruct.toJson (p : PendingKeyExchangeStruct) : JVal :=
  jStruct [("Sequence", jU32 p.sequence), ("LocalBaseKeyPublic", jBytes (some p.basePub)), ("LocalBaseKeyPrivate", jBytes (some p.basePriv)),
    ("LocalRatchetKeyPublic", jBytes (some p.ratchetPub)), ("LocalRatchetKeyPrivate", jBytes (some p.ratchetPriv)),
    ("LocalIdentityKeyPublic", jBytes (some p.identityPub)), ("LocalIdentityKeyPrivate", jBytes (some p.identityPriv))]
/-- `json.Unmarshal` (serialize/json.go) into the structure of state/record/state_pending_key_exchange.go:59-67. -/
def PendingKeyExchangeStruct.ofJson (m : List (Bytes × JVal)) : Option PendingKeyExchangeStruct := do
  let sequence ← jsonU32 pendingKeyExchangeNames m "Sequence"
  let basePub ← bytesField pendingKeyExchangeNames m "LocalBaseKeyPublic"
  let basePriv ← bytesField pendingKeyExchangeNames m "LocalBaseKeyPrivate"
  let ratchetPub ← bytesField pendingKeyExchangeNames m "LocalRatchetKeyPublic"
  let ratchetPriv ← bytesField pendingKeyExchangeNames m "LocalRatchetKeyPrivate"
  let identityPub ← bytesField pendingKeyExchangeNames m "LocalIdentityKeyPublic"
  let identityPriv ← bytesField pendingKeyExchangeNames m "LocalIdentityKeyPrivate"
  return { sequence, basePub := basePub.getD [], basePriv := basePriv.getD [], ratchetPub := ratchetPub.getD [],
           ratchetPriv := ratchetPriv.getD [], identityPub := identityPub.getD [], identityPriv := identityPriv.getD [] }

/-- state/record/state_session.go:100-114 as it comes out of the decoder. -/
structure RawState where
  localIdentity : Bytes
  localRegistrationId : UInt32
  needsRefresh : Bool
  pendingKeyExchange : Option PendingKeyExchangeStruct
  pendingPreKey : Option PendingPreKeyStruct
  previousCounter : UInt32
  receiverChains : List (Option RawChain)
  remoteIdentity : Bytes
  remoteRegistrationId : UInt32
  rootKey : Bytes
  senderBaseKey : Bytes
  senderChain : Option RawChain
  version : Int

/-- Field names of state/record/state_session.go:100-114. -/
def stateNames : List Bytes := [ascii "LocalIdentityPublic", ascii "LocalRegistrationID", ascii "NeedsRefresh", ascii "PendingKeyExchange",
  ascii "PendingPreKey", ascii "PreviousCounter", ascii "ReceiverChains", ascii "RemoteIdentityPublic", ascii "RemoteRegistrationID",
  ascii "RootKey", ascii "SenderBaseKey", ascii "SenderChain", ascii "SessionVersion"]
/-- The structure of state/record/state_session.go:100-114 as `json.Marshal` (serialize/json.go) writes it. -/
def StateStruct.toJson (s : StateStruct) : JVal :=
  jStruct [("LocalIdentityPublic", jBytes (some s.localIdentity)), ("LocalRegistrationID", jU32 s.localRegistrationId),
    ("NeedsRefresh", .bool s.needsRefresh), ("PendingKeyExchange", jPtr PendingKeyExchangeStruct.toJson s.pendingKeyExchange),
    ("PendingPreKey", jPtr PendingPreKeyStruct.toJson s.pendingPreKey), ("PreviousCounter", jU32 s.previousCounter),
    ("ReceiverChains", .arr (s.receiverChains.map ChainStruct.toJson)), ("RemoteIdentityPublic", jBytes (some s.remoteIdentity)),
    ("RemoteRegistrationID", jU32 s.remoteRegistrationId), ("RootKey", jBytes (some s.rootKey)), ("SenderBaseKey", jBytes (some s.senderBaseKey)),
    ("SenderChain", jPtr ChainStruct.toJson s.senderChain), ("SessionVersion", jInt s.version)]
/-- `json.Unmarshal` (serialize/json.go) into the structure of state/record/state_session.go:100-114. -/
def RawState.ofJson (m : List (Bytes × JVal)) : Option RawState := do
  let localIdentity ← bytesField stateNames m "LocalIdentityPublic"
  let localRegistrationId ← jsonU32 stateNames m "LocalRegistrationID"
  let needsRefresh ← boolField stateNames m "NeedsRefresh"
  let pendingKeyExchange ← ptrField PendingKeyExchangeStruct.ofJson stateNames m "PendingKeyExchange"
  let pendingPreKey ← ptrField PendingPreKeyStruct.ofJson stateNames m "PendingPreKey"
  let previousCounter ← jsonU32 stateNames m "PreviousCounter"
  let receiverChains ← sliceField RawChain.ofJson stateNames m "ReceiverChains"
  let remoteIdentity ← bytesField stateNames m "RemoteIdentityPublic"
  let remoteRegistrationId ← jsonU32 stateNames m "RemoteRegistrationID"
  let rootKey ← bytesField stateNames m "RootKey"
  let senderBaseKey ← bytesField stateNames m "SenderBaseKey"
  let senderChain ← ptrField RawChain.ofJson stateNames m "SenderChain"
  let version ← intField stateNames m "SessionVersion"
  return { localIdentity := localIdentity.getD [], localRegistrationId, needsRefresh, pendingKeyExchange, pendingPreKey, previousCounter,
           receiverChains, remoteIdentity := remoteIdentity.getD [], remoteRegistrationId, rootKey := rootKey.getD [],
           senderBaseKey := senderBaseKey.getD [], senderChain, version }

/-- state/record/session.go:92-95 -/
structure RawSession where
  state : Option RawState
  previous : List (Option RawState)

/-- Field names of state/record/session.go:92-95. -/
def sessionNames : List Bytes := [ascii "SessionState", ascii "PreviousStates"]
/-- The structure of state/record/session.go:92-95 as `json.Marshal` (serialize/json.go) writes it. -/
def SessionStruct.toJson (s : SessionStruct) : JVal :=
  jStruct [("SessionState", s.state.toJson), ("PreviousStates", .arr (s.previous.map StateStruct.toJson))]
/-- `json.Unmarshal` (serialize/json.go) into the structure of state/record/session.go:92-95. -/
def RawSession.ofJson (m : List (Bytes × JVal)) : Option RawSession := do
  let state ← ptrField RawState.ofJson sessionNames m "SessionState"
  let previous ← sliceField RawState.ofJson sessionNames m "PreviousStates"
  return { state, previous }

/-- All elements present. The loops of state/record/state_chain.go:44-49 and groups/state/record/state_sender_key.go:70-74 dereference every element. -/
def allSome {α : Type} : List (Option α) → Option (List α)
  | [] => some []
  | none :: _ => none
  | some a :: l => (allSome l).map (a :: ·)

/-- state/record/state_chain.go:38-67 `NewChainFromStructure`: a nil structure, chain key or message key is dereferenced. -/
def Chain.ofRaw : Option RawChain → Res Chain
  | none => .panic
  | some st =>
    (decodePoint st.ratchetPub).bind fun pub =>
      match allSome st.msgKeys, st.chainKey with
      | some mks, some ck =>
        let b := st.ratchetPriv.getD []
        .ok { pair := ⟨pub, if b.length = 32 then some (sliceToArray 32 b) else none⟩, chainKey := ck, msgKeys := mks }
      | _, _ => .panic

/-- state/record/state_session.go:46-96 `NewStateFromStructure`: a nil structure is dereferenced. -/
def SState.ofRaw : Option RawState → Res SState
  | none => .panic
  | some st =>
    (both (decodePoint st.localIdentity)
      (both (decodePoint st.remoteIdentity)
        (both (decodePoint st.senderBaseKey)
          (both (match st.pendingPreKey with
                  | none => .ok none
                  | some p => (PendingPreKey.ofStruct p).map some)
            (both (Chain.ofRaw st.senderChain)
              (collect (st.receiverChains.map Chain.ofRaw))))))).map
    fun (li, ri, bk, pk, sc, rcs) =>
      { localIdentity := some li, localRegistrationId := st.localRegistrationId,
        needsRefresh := st.needsRefresh,
        pendingKeyExchange := st.pendingKeyExchange.map PendingKeyExchange.ofStruct,
        pendingPreKey := pk, previousCounter := st.previousCounter, receiverChains := rcs,
        remoteIdentity := some ri, remoteRegistrationId := st.remoteRegistrationId,
        rootKey := some st.rootKey, senderBaseKey := some bk, senderChain := some sc,
        version := st.version }

/-- state/record/session.go:46-74 `NewSessionFromStructure`. -/
def Rec.ofRaw (st : RawSession) : Res Rec :=
  (seqRes (st.previous.map SState.ofRaw)).bind fun prev =>
    (SState.ofRaw st.state).map fun s => Rec.ofStates s prev

/-- state/record/session.go:169-171 `Serialize` with serialize/json.go:171-179. -/
def Rec.serialize (r : Rec) : Res Bytes := r.toStruct.map fun s => s.toJson.enc

/-- state/record/session.go:21-29 `NewSessionFromBytes` with serialize/json.go:183-192. -/
def Rec.ofBytes (b : Bytes) : Res Rec :=
  match unmarshalJson RawSession.ofJson b with
  | none => .err .badJson
  | some st => Rec.ofRaw st

/-- state/record/state_session.go:496-498 `Serialize` with serialize/json.go:144-152. -/
def SState.serialize (s : SState) : Res Bytes := s.toStruct.map fun s => s.toJson.enc

/-- state/record/state_session.go:29-37 `NewStateFromBytes` with serialize/json.go:155-164. -/
def SState.ofBytes (b : Bytes) : Res SState :=
  match unmarshalJson RawState.ofJson b with
  | none => .err .badJson
  | some st => SState.ofRaw (some st)

/-! ### Sender key records -/

/-- groups/ratchet/sender_message_key.go:55-60 -/
def smKeyNames : List Bytes := [ascii "Iteration", ascii "IV", ascii "CipherKey", ascii "Seed"]
/-- The structure of groups/ratchet/sender_message_key.go:55-60 as `json.Marshal` (serialize/json.go) writes it. -/
def SMKey.toJson (k : SMKey) : JVal :=
  jStruct [("Iteration", jU32 k.iteration), ("IV", jBytes (some k.iv)), ("CipherKey", jBytes (some k.cipherKey)), ("Seed", jBytes (some k.seed))]
/-- `json.Unmarshal` (serialize/json.go) into the structure of groups/ratchet/sender_message_key.go:55-60. -/
def SMKey.ofJson (m : List (Bytes × JVal)) : Option SMKey := do
  let iteration ← jsonU32 smKeyNames m "Iteration"
  let iv ← bytesField smKeyNames m "IV"
  let cipherKey ← bytesField smKeyNames m "CipherKey"
  let seed ← bytesField smKeyNames m "Seed"
  return { iteration, iv := iv.getD [], cipherKey := cipherKey.getD [], seed := seed.getD [] }

/-- groups/ratchet/sender_chain_key.go:37-40 -/
def sChainKeyNames : List Bytes := [ascii "Iteration", ascii "ChainKey"]
/-- The structure of groups/ratchet/sender_chain_key.go:37-40 as `json.Marshal` (serialize/json.go) writes it. -/
def SChainKey.toJson (k : SChainKey) : JVal := jStruct [("Iteration", jU32 k.iteration), ("ChainKey", jBytes (some k.key))]
/-- `json.Unmarshal` (serialize/json.go) into the structure of groups/ratchet/sender_chain_key.go:37-40. -/
def SChainKey.ofJson (m : List (Bytes × JVal)) : Option SChainKey := do
  let iteration ← jsonU32 sChainKeyNames m "Iteration"
  let key ← bytesField sChainKeyNames m "ChainKey"
  return { iteration, key := key.getD [] }

/-- groups/state/record/state_sender_key.go:91-97 as it comes out of the decoder. -/
structure RawSKState where
  keys : List (Option SMKey)
  keyId : UInt32
  chain : Option SChainKey
  signingPriv : Option Bytes
  signingPub : Bytes

/-- Field names of groups/state/record/state_sender_key.go:91-97. -/
def skStateNames : List Bytes := [ascii "Keys", ascii "KeyID", ascii "SenderChainKey", ascii "SigningKeyPrivate", ascii "SigningKeyPublic"]
/-- The structure of groups/state/record/state_sender_key.go:91-97 as `json.Marshal` (serialize/json.go) writes it. -/
def SKStateStruct.toJson (s : SKStateStruct) : JVal :=
  jStruct [("Keys", .arr (s.keys.map SMKey.toJson)), ("KeyID", jU32 s.keyId), ("SenderChainKey", s.chain.toJson),
    ("SigningKeyPrivate", jBytes s.signingPriv), ("SigningKeyPublic", jBytes (some s.signingPub))]
/-- `json.Unmarshal` (serialize/json.go) into the structure of groups/state/record/state_sender_key.go:91-97. -/
def RawSKState.ofJson (m : List (Bytes × JVal)) : Option RawSKState := do
  let keys ← sliceField SMKey.ofJson skStateNames m "Keys"
  let keyId ← jsonU32 skStateNames m "KeyID"
  let chain ← ptrField SChainKey.ofJson skStateNames m "SenderChainKey"
  let signingPriv ← bytesField skStateNames m "SigningKeyPrivate"
  let signingPub ← bytesField skStateNames m "SigningKeyPublic"
  return { keys, keyId, chain, signingPriv, signingPub := signingPub.getD [] }

/-- groups/state/record/sender_key.go:67-69 -/
def senderKeyNames : List Bytes := [ascii "SenderKeyStates"]
/-- The structure of groups/state/record/sender_key.go:67-69 as `json.Marshal` (serialize/json.go) writes it. -/
def senderKeyJson (l : List SKStateStruct) : JVal := jStruct [("SenderKeyStates", .arr (l.map SKStateStruct.toJson))]
/-- `json.Unmarshal` (serialize/json.go) into the structure of groups/state/record/sender_key.go:67-69. -/
def rawSenderKey (m : List (Bytes × JVal)) : Option (List (Option RawSKState)) :=
  sliceField RawSKState.ofJson senderKeyNames m "SenderKeyStates"

/-- groups/state/record/state_sender_key.go:62-88 `NewSenderKeyStateFromStructure`: a nil structure, message key or chain key is dereferenced. -/
def SKState.ofRaw : Option RawSKState → Res SKState
  | none => .panic
  | some st =>
    (decodePoint st.signingPub).bind fun pub =>
      match allSome st.keys, st.chain with
      | some ks, some c => .ok ⟨ks, st.keyId, c, ⟨pub, some (sliceToArray 32 (st.signingPriv.getD []))⟩⟩
      | _, _ => .panic

/-- groups/state/record/state_sender_key.go:162-164 `Serialize` of one state with serialize/json.go:252-264 `JSONSenderKeyStateSerializer`. -/
def SKState.serialize (s : SKState) : Bytes := s.toStruct.toJson.enc

/-- groups/state/record/state_sender_key.go:21-29 `NewSenderKeyStateFromBytes` with serialize/json.go:266-276. -/
def SKState.ofBytes (b : Bytes) : Res SKState :=
  match unmarshalJson RawSKState.ofJson b with
  | none => .err .badJson
  | some st => SKState.ofRaw (some st)

/-- groups/state/record/sender_key.go:131-133 `Serialize` with serialize/json.go:282-290. -/
def GRec.serialize (r : GRec) : Bytes := (senderKeyJson r.toStruct).enc

/-- groups/state/record/sender_key.go:18-28 `NewSenderKeyFromBytes` with serialize/json.go:294-303. -/
def GRec.ofBytes (b : Bytes) : Res GRec :=
  match unmarshalJson rawSenderKey b with
  | none => .err .badJson
  | some l => seqRes (l.map SKState.ofRaw)

end Verif
