import Verif.Model.Session
/-
groups/: sender key ratchet, sender key state and record, session builder and group cipher.
-/
namespace Verif

/-- groups/ratchet/sender_message_key.go:64-69 `SenderMessageKey`. -/
structure SMKey where
  iteration : UInt32
  iv : Bytes
  cipherKey : Bytes
  seed : Bytes
deriving DecidableEq

/-- groups/ratchet/sender_chain_key.go:42-45 `SenderChainKey`. -/
structure SChainKey where
  iteration : UInt32
  key : Bytes
deriving DecidableEq

/-- groups/ratchet/sender_chain_key.go:63-68 `getDerivative`. -/
def SChainKey.derivative (C : Crypto) (k : SChainKey) (seed : Bytes) : Bytes := (C.hmac k.key seed).bytes

/-- groups/ratchet/sender_message_key.go:13-31 `NewSenderMessageKey`. -/
def newSMKey (C : Crypto) (iteration : UInt32) (seed : Bytes) : Res SMKey :=
  (deriveSecrets C seed none (ascii "WhisperGroup") 48).bind fun d =>
    (split d 16 32).map fun (iv, key) => ⟨iteration, iv, key, seed⟩

/-- groups/ratchet/sender_chain_key.go:51-53 `SenderMessageKey` (messageKeySeed = {0x01}). -/
def SChainKey.msgKey (C : Crypto) (k : SChainKey) : Res SMKey :=
  newSMKey C k.iteration (k.derivative C [0x01])

/-- groups/ratchet/sender_chain_key.go:55-57 `Next` (chainKeySeed = {0x02}); `+1` wraps. -/
def SChainKey.next (C : Crypto) (k : SChainKey) : SChainKey :=
  ⟨k.iteration + 1, k.derivative C [0x02]⟩

/-- groups/state/record/state_sender_key.go:9. -/
def groupMaxMessageKeys : Nat := 2000

/-- groups/state/record/state_sender_key.go:100-106 `SenderKeyState` (serializer omitted). -/
structure SKState where
  keys : List SMKey
  keyId : UInt32
  chain : SChainKey
  signing : KeyPair
deriving DecidableEq

/-- groups/state/record/state_sender_key.go:125-132 `HasSenderMessageKey`. -/
def SKState.hasKey (s : SKState) (it : UInt32) : Bool := s.keys.any (fun k => k.iteration == it)

/-- groups/state/record/state_sender_key.go:135-141 `AddSenderMessageKey`. -/
def SKState.addKey (s : SKState) (k : SMKey) : SKState :=
  let ks := s.keys ++ [k]
  { s with keys := if groupMaxMessageKeys < ks.length then ks.drop 1 else ks }

/-- groups/state/record/state_sender_key.go:149-159 `RemoveSenderMessageKey`: removes and returns
the first key with the iteration, nil when there is none. -/
def SKState.removeKey (s : SKState) (it : UInt32) : Option SMKey × SKState :=
  match s.keys.findIdx? (fun k => k.iteration == it) with
  | none => (none, s)
  | some i => (s.keys[i]?, { s with keys := s.keys.eraseIdx i })

/-- groups/state/record/sender_key.go:73-77 `SenderKey` record: its states in order. -/
abbrev GRec := List SKState

/-- groups/state/record/sender_key.go:81-86 `SenderKeyState`. -/
def GRec.first (r : GRec) : Res SKState :=
  match r with
  | [] => .err .noSenderKeys
  | s :: _ => .ok s

/-- groups/state/record/sender_key.go:90-98 `GetSenderKeyStateByID`: first state with the id. -/
def GRec.byId (r : GRec) (id : UInt32) : Res SKState :=
  match r.find? (fun s => s.keyId == id) with
  | none => .err .noSenderKeyForId
  | some s => .ok s

/-- groups/state/record/sender_key.go:108-117 `AddSenderKeyState`. -/
def GRec.addState (r : GRec) (id iteration : UInt32) (chainKey : Bytes) (pub : Key32) : GRec :=
  let r' := r ++ [⟨[], id, ⟨iteration, chainKey⟩, ⟨pub, none⟩⟩]
  if groupMaxMessageKeys < r'.length then r'.drop 1 else r'

/-- groups/state/record/sender_key.go:121-127 `SetSenderKeyState`. -/
def GRec.setState (id iteration : UInt32) (chainKey : Bytes) (kp : KeyPair) : GRec :=
  [⟨[], id, ⟨iteration, chainKey⟩, kp⟩]

/-- groups/state/record/state_sender_key.go:91-97 `SenderKeyStateStructure`. -/
structure SKStateStruct where
  keys : List SMKey
  keyId : UInt32
  chain : SChainKey
  signingPriv : Option Bytes
  signingPub : Bytes
deriving DecidableEq

/-- groups/state/record/state_sender_key.go:168-186 `structure`. -/
def SKState.toStruct (s : SKState) : SKStateStruct :=
  ⟨s.keys, s.keyId, s.chain, s.signing.priv.map Arr.bytes, serPub s.signing.pub⟩

/-- groups/state/record/state_sender_key.go:62-88 `NewSenderKeyStateFromStructure`: the private
key is always built, from whatever bytes are present. -/
def SKState.ofStruct (st : SKStateStruct) : Res SKState :=
  (decodePoint st.signingPub).map fun pub =>
    ⟨st.keys, st.keyId, st.chain, ⟨pub, some (sliceToArray 32 (st.signingPriv.getD []))⟩⟩

/-- groups/state/record/sender_key.go:138-146 `structure`. -/
def GRec.toStruct (r : GRec) : List SKStateStruct := r.map SKState.toStruct
/-- groups/state/record/sender_key.go:31-52 `NewSenderKeyFromStruct`. -/
def GRec.ofStruct (st : List SKStateStruct) : Res GRec := seqRes (st.map SKState.ofStruct)

/-! ### Cipher and builder -/

/-- groups/cipher.go:37-69 `Encrypt` on the loaded record (`none` = nil pointer).  Returns the
result, the record as left in memory, and whether `StoreSenderKey` was called with it. -/
def groupEncrypt (C : Crypto) (S : Ser SKStruct) (rand : Arr 64) (r : Option GRec) (pt : Bytes) :
    Res SenderKeyMsg × Option GRec × Bool :=
  match r with
  | none => (.panic, none, false)
  | some [] => (.err .noSenderKeys, r, false)
  | some (s :: rest) =>
    match (s.chain.msgKey C).bind fun mk =>
        (encryptCbc C none (some mk.iv) mk.cipherKey pt).bind fun ct =>
          newSenderKeyMessage C S s.keyId mk.iteration ct s.signing.priv rand with
    | .err e => (.err e, r, false)
    | .panic => (.panic, r, false)
    | .ok m => (.ok m, some ({ s with chain := s.chain.next C } :: rest), true)

/-- groups/cipher.go:132-139, the loop storing skipped keys; `fuel` is the number of iterations
left, `iteration - chain.iteration`. -/
def groupSkip (C : Crypto) (iteration : UInt32) : Nat → SKState → SChainKey → Res SChainKey × SKState
  | 0, s, ck => (.ok ck, s)
  | fuel + 1, s, ck =>
    if ck.iteration < iteration then
      match ck.msgKey C with
      | .ok k => groupSkip C iteration fuel (s.addKey k) (ck.next C)
      | .err e => (.err e, s)
      | .panic => (.panic, s)
    else (.ok ck, s)

/-- groups/cipher.go:117-143 `getSenderKey`; `none` is a nil message key. -/
def getSenderKey (C : Crypto) (s : SKState) (iteration : UInt32) : Res (Option SMKey) × SKState :=
  if iteration < s.chain.iteration then
    if s.hasKey iteration then
      let (k, s') := s.removeKey iteration
      (.ok k, s')
    else (.err .oldCounter, s)
  else if 2000 < iteration - s.chain.iteration then (.err .tooFarFuture, s)
  else
    match groupSkip C iteration (iteration - s.chain.iteration).toNat s s.chain with
    | (.ok ck, s') => ((ck.msgKey C).map some, { s' with chain := ck.next C })
    | (.err e, s') => (.err e, s')
    | (.panic, s') => (.panic, s')

/-- groups/cipher.go:73-107 `Decrypt` on the loaded record; conventions of `groupEncrypt`.
The in-place decryption of the message's ciphertext is modelled in `Model/Buffers.lean`. -/
def groupDecrypt (C : Crypto) (S : Ser SKStruct) (r : Option GRec) (m : SenderKeyMsg) :
    Res Bytes × Option GRec × Bool :=
  match r with
  | none => (.panic, none, false)
  | some [] => (.err .noSenderKeyRecord, r, false)
  | some (s0 :: rest) =>
    let l := s0 :: rest
    match l.find? (fun s => s.keyId == m.keyId) with
    | none => (.err .noSenderKeyForId, r, false)
    | some s =>
      match m.serialize S with
      | .err e => (.err e, r, false)
      | .panic => (.panic, r, false)
      | .ok body =>
        if C.verify s.signing.pub body m.sig = false then (.err .signatureFailed, r, false)
        else
          match getSenderKey C s m.iteration with
          | (res, s') =>
            let r' := some (modifyFirst (fun s => s.keyId == m.keyId) (fun _ => s') l)
            match res with
            | .err e => (.err e, r', false)
            | .panic => (.panic, r', false)
            | .ok none => (.panic, r', false)
            | .ok (some mk) =>
              match decryptCbc C (some mk.iv) mk.cipherKey (m.ciphertext.getD []) with
              | .err e => (.err e, r', false)
              | .panic => (.panic, r', false)
              | .ok pt => (.ok pt, r', true)

/-- groups/session_builder.go:37-46 `Process`: the record that is stored. -/
def groupProcess (r : Option GRec) (m : SKDMsg) : GRec :=
  (r.getD []).addState m.id m.iteration (m.chainKey.getD []) m.signatureKey

/-- What `Create` reads from the random source: the signing key (its error is reported), the key
id and the chain key (their errors are ignored). groups/session_builder.go:49 `Create`. -/
structure GroupDraws where
  signing : Option Key32
  id : UInt32
  chain : Key32

/-- groups/session_builder.go:49-84 `Create`: the distribution message and, when a new record was
generated, the record that was stored. -/
def groupCreate (C : Crypto) (d : GroupDraws) (r : Option GRec) : Res SKDMsg × Option GRec :=
  match r with
  | some (s :: _) => (.ok (newSKDM s.keyId s.chain.iteration s.chain.key s.signing.pub), none)
  | _ =>
    match generateKeyPair C d.signing with
    | .err e => (.err e, none)
    | .panic => (.panic, none)
    | .ok kp =>
      let rec' := GRec.setState d.id 0 d.chain.bytes kp
      (.ok (newSKDM d.id 0 d.chain.bytes kp.pub), some rec')

/-- protocol/sender_key_name.go:12-15 `SenderKeyName`. -/
structure SenderKeyName where
  groupId : String
  sender : Addr
deriving DecidableEq

/-- A serialising sender key store (groups/state/store/sender_key.go:8-11): a missing record
loads as nil. -/
structure GStore where
  recs : SenderKeyName → Option (List SKStateStruct)

/-- Load from a serialising store; a record that cannot be rebuilt is a panic (no error result). groups/state/store/sender_key.go. -/
def GStore.load (st : GStore) (n : SenderKeyName) : Res (Option GRec) :=
  match st.recs n with
  | none => .ok none
  | some s => match GRec.ofStruct s with
    | .ok r => .ok (some r)
    | _ => .panic

/-- `StoreSenderKey`. groups/state/store/sender_key.go. -/
def GStore.save (st : GStore) (n : SenderKeyName) (r : GRec) : GStore :=
  ⟨fun x => if x = n then some r.toStruct else st.recs x⟩

/-- groups/cipher.go:37 `Encrypt` against a serialising store. -/
def GStore.encrypt (C : Crypto) (S : Ser SKStruct) (rand : Arr 64) (st : GStore) (n : SenderKeyName) (pt : Bytes) :
    Res SenderKeyMsg × GStore :=
  match st.load n with
  | .err e => (.err e, st)
  | .panic => (.panic, st)
  | .ok r =>
    match groupEncrypt C S rand r pt with
    | (res, some r', true) => (res, st.save n r')
    | (res, _, _) => (res, st)

/-- groups/cipher.go:73 `Decrypt` against a serialising store. -/
def GStore.decrypt (C : Crypto) (S : Ser SKStruct) (st : GStore) (n : SenderKeyName) (m : SenderKeyMsg) :
    Res Bytes × GStore :=
  match st.load n with
  | .err e => (.err e, st)
  | .panic => (.panic, st)
  | .ok r =>
    match groupDecrypt C S r m with
    | (res, some r', true) => (res, st.save n r')
    | (res, _, _) => (res, st)

/-- groups/session_builder.go:37 `Process` against a serialising store. -/
def GStore.process (st : GStore) (n : SenderKeyName) (m : SKDMsg) : Res Unit × GStore :=
  match st.load n with
  | .err e => (.err e, st)
  | .panic => (.panic, st)
  | .ok r => (.ok (), st.save n (groupProcess r m))

/-- groups/session_builder.go:49 `Create` against a serialising store. -/
def GStore.create (C : Crypto) (d : GroupDraws) (st : GStore) (n : SenderKeyName) : Res SKDMsg × GStore :=
  match st.load n with
  | .err e => (.err e, st)
  | .panic => (.panic, st)
  | .ok r =>
    match groupCreate C d r with
    | (res, some r') => (res, st.save n r')
    | (res, none) => (res, st)

end Verif
