import Verif.Model.Protocol
/-
state/record/state_session.go, state_chain.go, state_pending_*.go: one session state.
-/
namespace Verif

/-- state/record/state_session.go:16-17. -/
def maxMessageKeys : Nat := 2000
/-- state/record/state_session.go:17. -/
def maxReceiverChains : Nat := 5

/-- state/record/state_chain.go:79-83 `Chain`. -/
structure Chain where
  pair : KeyPair
  chainKey : ChainKey
  msgKeys : List MsgKeys
deriving DecidableEq

/-- state/record/state_pending_prekey.go:46-50 `PendingPreKey`. -/
structure PendingPreKey where
  preKeyId : Option OptU32
  signedPreKeyId : UInt32
  baseKey : Key32
deriving DecidableEq

/-- state/record/state_pending_key_exchange.go:71-76 `PendingKeyExchange` (all keys present:
its `structure` dereferences every private key). -/
structure PendingKeyExchange where
  sequence : UInt32
  baseKey : IdKeyPair
  ratchetKey : IdKeyPair
  identityKey : IdKeyPair
deriving DecidableEq

/-- state/record/state_session.go:120-135 `State` (serializer field omitted). -/
structure SState where
  localIdentity : Option Key32
  localRegistrationId : UInt32
  needsRefresh : Bool
  pendingKeyExchange : Option PendingKeyExchange
  pendingPreKey : Option PendingPreKey
  previousCounter : UInt32
  receiverChains : List Chain
  remoteIdentity : Option Key32
  remoteRegistrationId : UInt32
  rootKey : Option Bytes
  senderBaseKey : Option Key32
  senderChain : Option Chain
  version : Int
deriving DecidableEq

/-- state/record/state_session.go:40-42 `NewState`. -/
def SState.new : SState :=
  { localIdentity := none, localRegistrationId := 0, needsRefresh := false, pendingKeyExchange := none,
    pendingPreKey := none, previousCounter := 0, receiverChains := [], remoteIdentity := none,
    remoteRegistrationId := 0, rootKey := none, senderBaseKey := none, senderChain := none, version := 0 }

/-- Apply `f` to the first element satisfying `p` (mutation through the pointer returned by a search). state/record/state_session.go:229-245. -/
def modifyFirst {α : Type} (p : α → Bool) (f : α → α) : List α → List α
  | [] => []
  | a :: l => if p a then f a :: l else a :: modifyFirst p f l

/-- state/record/state_session.go:229-245 `receiverChain`: first chain whose ratchet key equals
the given key.  (The code compares after `DecodePoint(Serialize())`, which is the identity:
`decodePoint_serPub` in Proofs/Basic.) -/
def SState.receiverChain (s : SState) (eph : Key32) : Option Chain :=
  s.receiverChains.find? (fun c => c.pair.pub == eph)

/-- Mutation of the chain found by `receiverChain`. state/record/state_session.go:229-245. -/
def SState.modifyChain (s : SState) (eph : Key32) (f : Chain → Chain) : SState :=
  { s with receiverChains := modifyFirst (fun c => c.pair.pub == eph) f s.receiverChains }

/-- state/record/state_session.go:249-262 `ReceiverChainKey` (nil dereference panics when absent). -/
def SState.receiverChainKey (s : SState) (eph : Key32) : Res ChainKey :=
  match s.receiverChain eph with
  | none => .panic
  | some c => .ok c.chainKey

/-- state/record/state_session.go:266-282 `AddReceiverChain`: append, drop the oldest beyond five. -/
def SState.addReceiverChain (s : SState) (eph : Key32) (ck : ChainKey) : SState :=
  let cs := s.receiverChains ++ [⟨⟨eph, none⟩, ck, []⟩]
  { s with receiverChains := if maxReceiverChains < cs.length then cs.drop 1 else cs }

/-- state/record/state_session.go:286-293 `SetSenderChain`. -/
def SState.setSenderChain (s : SState) (pair : KeyPair) (ck : ChainKey) : SState :=
  { s with senderChain := some ⟨pair, ck, []⟩ }

/-- state/record/state_session.go:296-299 `SenderChainKey`. -/
def SState.senderChainKey (s : SState) : Res ChainKey :=
  match s.senderChain with
  | none => .panic
  | some c => .ok c.chainKey

/-- state/record/state_session.go:303-306 `SetSenderChainKey`. -/
def SState.setSenderChainKey (s : SState) (ck : ChainKey) : Res SState :=
  match s.senderChain with
  | none => .panic
  | some c => .ok { s with senderChain := some { c with chainKey := ck } }

/-- state/record/state_session.go:310-332 `HasMessageKeys` (panics when there is no such chain:
`chainAndIndex.ReceiverChain` dereferences nil). -/
def SState.hasMessageKeys (s : SState) (eph : Key32) (counter : UInt32) : Res Bool :=
  match s.receiverChain eph with
  | none => .panic
  | some c => .ok (c.msgKeys.any (fun k => k.index == counter))

/-- state/record/state_session.go:336-371 `RemoveMessageKeys`: first key with the index, or
position 0 when there is none (`var rmIndex int`); panics on an empty list. -/
def SState.removeMessageKeys (s : SState) (eph : Key32) (counter : UInt32) : Res MsgKeys × SState :=
  match s.receiverChain eph with
  | none => (.panic, s)
  | some c =>
    let i := (c.msgKeys.findIdx? (fun k => k.index == counter)).getD 0
    match c.msgKeys[i]? with
    | none => (.panic, s)
    | some k => (.ok k, s.modifyChain eph (fun c => { c with msgKeys := c.msgKeys.eraseIdx i }))

/-- state/record/state_chain.go:120-131 `AddMessageKeys`/`PopFirstMessageKeys` as used by
state/record/state_session.go:375-392 `SetMessageKeys`: append, drop the oldest beyond 2000. -/
def Chain.addMsgKeys (c : Chain) (k : MsgKeys) : Chain :=
  let ks := c.msgKeys ++ [k]
  { c with msgKeys := if maxMessageKeys < ks.length then ks.drop 1 else ks }

/-- state/record/state_session.go:375-392 `SetMessageKeys`. -/
def SState.setMessageKeys (s : SState) (eph : Key32) (k : MsgKeys) : Res SState :=
  match s.receiverChain eph with
  | none => .panic
  | some _ => .ok (s.modifyChain eph (·.addMsgKeys k))

/-- state/record/state_session.go:396-400 `SetReceiverChainKey`. -/
def SState.setReceiverChainKey (s : SState) (eph : Key32) (ck : ChainKey) : Res SState :=
  match s.receiverChain eph with
  | none => .panic
  | some _ => .ok (s.modifyChain eph (fun c => { c with chainKey := ck }))

/-- state/record/state_session.go:146-148 `SetSenderBaseKey` (a decode error leaves nil). -/
def SState.setSenderBaseKey (s : SState) (b : Bytes) : Res SState :=
  match decodePoint b with
  | .ok k => .ok { s with senderBaseKey := some k }
  | .err _ => .ok { s with senderBaseKey := none }
  | .panic => .panic

/-! ### Serialisable structures -/

/-- state/record/state_chain.go:70-75 `ChainStructure`. -/
structure ChainStruct where
  ratchetPub : Bytes
  ratchetPriv : Option Bytes
  chainKey : ChainKey
  msgKeys : List MsgKeys
deriving DecidableEq

/-- state/record/state_pending_prekey.go:38-42. -/
structure PendingPreKeyStruct where
  preKeyId : Option OptU32
  signedPreKeyId : UInt32
  baseKey : Bytes
deriving DecidableEq

/-- state/record/state_pending_key_exchange.go:59-67. -/
structure PendingKeyExchangeStruct where
  sequence : UInt32
  basePub : Bytes
  basePriv : Bytes
  ratchetPub : Bytes
  ratchetPriv : Bytes
  identityPub : Bytes
  identityPriv : Bytes
deriving DecidableEq

/-- state/record/state_session.go:100-114 `StateStructure`. -/
structure StateStruct where
  localIdentity : Bytes
  localRegistrationId : UInt32
  needsRefresh : Bool
  pendingKeyExchange : Option PendingKeyExchangeStruct
  pendingPreKey : Option PendingPreKeyStruct
  previousCounter : UInt32
  receiverChains : List ChainStruct
  remoteIdentity : Bytes
  remoteRegistrationId : UInt32
  rootKey : Bytes
  senderBaseKey : Bytes
  senderChain : Option ChainStruct
  version : Int
deriving DecidableEq

/-- state/record/state_chain.go:134-157 `structure`. -/
def Chain.toStruct (c : Chain) : ChainStruct :=
  { ratchetPub := serPub c.pair.pub, ratchetPriv := c.pair.priv.map Arr.bytes,
    chainKey := c.chainKey, msgKeys := c.msgKeys }

/-- state/record/state_chain.go:38-64 `NewChainFromStructure`: the private key is kept only
when it has 32 bytes; a nil structure panics. -/
def Chain.ofStruct (st : Option ChainStruct) : Res Chain :=
  match st with
  | none => .panic
  | some st =>
    (decodePoint st.ratchetPub).map fun pub =>
      let b := st.ratchetPriv.getD []
      { pair := ⟨pub, if b.length = 32 then some (sliceToArray 32 b) else none⟩,
        chainKey := st.chainKey, msgKeys := st.msgKeys }

/-- state/record/state_pending_prekey.go:53-62. -/
def PendingPreKey.toStruct (p : PendingPreKey) : PendingPreKeyStruct :=
  ⟨p.preKeyId, p.signedPreKeyId, serPub p.baseKey⟩
/-- state/record/state_pending_prekey.go:21-34. -/
def PendingPreKey.ofStruct (st : PendingPreKeyStruct) : Res PendingPreKey :=
  (decodePoint st.baseKey).map fun k => ⟨st.preKeyId, st.signedPreKeyId, k⟩

/-- state/record/state_pending_key_exchange.go:80-91. -/
def PendingKeyExchange.toStruct (p : PendingKeyExchange) : PendingKeyExchangeStruct :=
  ⟨p.sequence, p.baseKey.pub.bytes, p.baseKey.priv.bytes, p.ratchetKey.pub.bytes, p.ratchetKey.priv.bytes,
   p.identityKey.pub.bytes, p.identityKey.priv.bytes⟩
/-- state/record/state_pending_key_exchange.go:24-54. -/
def PendingKeyExchange.ofStruct (st : PendingKeyExchangeStruct) : PendingKeyExchange :=
  ⟨st.sequence, ⟨sliceToArray 32 st.basePub, sliceToArray 32 st.basePriv⟩,
   ⟨sliceToArray 32 st.ratchetPub, sliceToArray 32 st.ratchetPriv⟩,
   ⟨sliceToArray 32 st.identityPub, sliceToArray 32 st.identityPriv⟩⟩

/-- state/record/state_session.go:502-531 `structure`: dereferences identities, root key, base key
and sender chain (panics when one is nil). -/
def SState.toStruct (s : SState) : Res StateStruct :=
  match s.localIdentity, s.remoteIdentity, s.rootKey, s.senderBaseKey, s.senderChain with
  | some li, some ri, some rk, some bk, some sc =>
    .ok { localIdentity := serPub li, localRegistrationId := s.localRegistrationId,
          needsRefresh := s.needsRefresh,
          pendingKeyExchange := s.pendingKeyExchange.map PendingKeyExchange.toStruct,
          pendingPreKey := s.pendingPreKey.map PendingPreKey.toStruct,
          previousCounter := s.previousCounter,
          receiverChains := s.receiverChains.map Chain.toStruct,
          remoteIdentity := serPub ri, remoteRegistrationId := s.remoteRegistrationId,
          rootKey := rk, senderBaseKey := serPub bk, senderChain := some sc.toStruct,
          version := s.version }
  | _, _, _, _, _ => .panic

/-- Evaluate a list of results left to right; a panic anywhere aborts at once, the first
error is reported after all have been evaluated (`errorhelper.MultiError`,
util/errorhelper/error.go:17-39: evaluation continues past errors). -/
def collect {α : Type} : List (Res α) → Res (List α)
  | [] => .ok []
  | x :: xs =>
    match x, collect xs with
    | .panic, _ => .panic
    | _, .panic => .panic
    | .err e, _ => .err e
    | .ok _, .err e => .err e
    | .ok a, .ok as => .ok (a :: as)

/-- Two results evaluated in order with `MultiError` (see `collect`). state/record/state_session.go:46-96. -/
def both {α β : Type} (x : Res α) (y : Res β) : Res (α × β) :=
  match x, y with
  | .panic, _ => .panic
  | _, .panic => .panic
  | .err e, _ => .err e
  | .ok _, .err e => .err e
  | .ok a, .ok b => .ok (a, b)

/-- state/record/state_session.go:46-94 `NewStateFromStructure`. -/
def SState.ofStruct (st : StateStruct) : Res SState :=
  (both (decodePoint st.localIdentity)
    (both (decodePoint st.remoteIdentity)
      (both (decodePoint st.senderBaseKey)
        (both (match st.pendingPreKey with
                | none => .ok none
                | some p => (PendingPreKey.ofStruct p).map some)
          (both (Chain.ofStruct st.senderChain)
            (collect (st.receiverChains.map fun c => Chain.ofStruct (some c)))))))).map
  fun (li, ri, bk, pk, sc, rcs) =>
    { localIdentity := some li, localRegistrationId := st.localRegistrationId,
      needsRefresh := st.needsRefresh,
      pendingKeyExchange := st.pendingKeyExchange.map PendingKeyExchange.ofStruct,
      pendingPreKey := pk, previousCounter := st.previousCounter, receiverChains := rcs,
      remoteIdentity := some ri, remoteRegistrationId := st.remoteRegistrationId,
      rootKey := some st.rootKey, senderBaseKey := some bk, senderChain := some sc,
      version := st.version }

end Verif
