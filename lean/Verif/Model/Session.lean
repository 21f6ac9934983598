import Verif.Model.Record
import Verif.Model.Cbc
/-
session/cipher.go and session/session.go: encrypting, decrypting, building sessions.
Functions return the mutated objects together with the Go result, and the list of store
operations performed, in order.
-/
namespace Verif

/-- protocol/signal_protocol_address.go:20-23 `SignalAddress`. -/
structure Addr where
  name : String
  deviceId : UInt32
deriving DecidableEq

/-- session/cipher.go: `const maxFutureMessages = 5000`. -/
def maxFutureMessages : UInt32 := 5000

/-- util/medium/medium.go:4 `MaxValue`. -/
def mediumMaxValue : UInt32 := 0xFFFFFF

/-- What a `Cipher`/`Builder` is configured with: primitives, message serializers, the local
identity (`GetIdentityKeyPair`), registration id, the random source (the n-th 32-byte read;
`none` = read error) and the application's `IsTrustedIdentity` as a function of the saved
identities. session/cipher.go:20-62, session/session.go:28-75. -/
structure Env where
  C : Crypto
  S : Ser SMStruct
  P : Ser PKStruct
  rng : Nat → Option Key32
  identity : IdKeyPair
  registrationId : UInt32
  trusted : (Addr → Option Key32) → Addr → Key32 → Bool

/-- A message returned by Encrypt. protocol/ciphertext_message.go. -/
inductive CipherMsg where
  | signal (m : SignalMsg)
  | preKey (m : PreKeyMsg)
deriving DecidableEq

/-- Store operations, in program order. state/store/*.go calls in session/cipher.go and session/session.go. -/
inductive Effect where
  | saveIdentity (a : Addr) (k : Option Key32)
  | storeSession (a : Addr) (r : Rec)
  | removePreKey (id : UInt32)

/-! ### Per-state operations (session/cipher.go:236-361) -/

/-- session/cipher.go:358-361 `encrypt`. -/
def encryptBody (C : Crypto) (k : MsgKeys) (plaintext : Bytes) : Res Bytes :=
  encryptCbc C none (some k.iv) k.cipherKey plaintext

/-- session/cipher.go:351-354 `decrypt` (on a copy of the body). -/
def decryptBody (C : Crypto) (k : MsgKeys) (body : Bytes) : Res Bytes :=
  decryptCbc C (some k.iv) k.cipherKey body

/-- session/cipher.go:364-369 `max` on uint32. -/
def maxU32 (x y : UInt32) : UInt32 := if y < x then x else y

/-- session/cipher.go:299-303, the loop storing skipped message keys.  `fuel` is the number
of iterations left (`counter - index`, see `skipLoop_reaches` in Proofs/Window). -/
def skipLoop (C : Crypto) (eph : Key32) (counter : UInt32) : Nat → SState → ChainKey → Res ChainKey × SState
  | 0, s, ck => (.ok ck, s)
  | fuel + 1, s, ck =>
    if ck.index < counter then
      match s.setMessageKeys eph (ck.msgKeys C) with
      | .ok s' => skipLoop C eph counter fuel s' (ck.next C)
      | .err e => (.err e, s)
      | .panic => (.panic, s)
    else (.ok ck, s)

/-- session/cipher.go:281-307 `getOrCreateMessageKeys`. -/
def getOrCreateMessageKeys (C : Crypto) (s : SState) (eph : Key32) (ck : ChainKey) (counter : UInt32) :
    Res MsgKeys × SState :=
  if counter < ck.index then
    match s.hasMessageKeys eph counter with
    | .ok true => s.removeMessageKeys eph counter
    | .ok false => (.err .oldCounter, s)
    | .err e => (.err e, s)
    | .panic => (.panic, s)
  else if maxFutureMessages < counter - ck.index then (.err .tooFarFuture, s)
  else
    match skipLoop C eph counter (counter - ck.index).toNat s ck with
    | (.ok ck', s') =>
      match s'.setReceiverChainKey eph (ck'.next C) with
      | .ok s'' => (.ok (ck'.msgKeys C), s'')
      | .err e => (.err e, s')
      | .panic => (.panic, s')
    | (.err e, s') => (.err e, s')
    | (.panic, s') => (.panic, s')

/-- session/cipher.go:311-347 `getOrCreateChainKey`; `draw` is the random read used when a new
chain is created.  The returned Bool tells whether the random source was read. -/
def getOrCreateChainKey (C : Crypto) (draw : Option Key32) (s : SState) (eph : Key32) :
    Res ChainKey × SState × Bool :=
  match s.receiverChain eph with
  | some c => (.ok c.chainKey, s, false)
  | none =>
    match s.rootKey, s.senderChain with
    | some root, some sc =>
      match createChain C root eph sc.pair with
      | .err e => (.err e, s, false)
      | .panic => (.panic, s, false)
      | .ok recv =>
        match generateKeyPair C draw with
        | .err e => (.err e, s, true)
        | .panic => (.panic, s, true)
        | .ok ourNew =>
          match createChain C recv.root eph ourNew with
          | .err e => (.err e, s, true)
          | .panic => (.panic, s, true)
          | .ok send =>
            let s1 := { s with rootKey := some send.root }
            let s2 := s1.addReceiverChain eph recv.chain
            let s3 := { s2 with previousCounter := maxU32 (sc.chainKey.index - 1) 0 }
            (.ok recv.chain, s3.setSenderChain ourNew send.chain, true)
    | _, _ => (.panic, s, false)

/-- session/cipher.go:236-279 `DecryptWithState`.  Note that every mutation happens before the
MAC is verified.  Returns the result, the state as left in memory, and whether the random
source was read. -/
def decryptWithState (E : Env) (draw : Option Key32) (s : SState) (m : SignalMsg) :
    Res (Bytes × MsgKeys) × SState × Bool :=
  match s.senderChain with
  | none => (.err .uninitialized, s, false)
  | some _ =>
    if m.struct.version ≠ s.version then (.err .wrongVersion, s, false)
    else
      match getOrCreateChainKey E.C draw s m.senderRatchetKey with
      | (.err e, s1, d) => (.err e, s1, d)
      | (.panic, s1, d) => (.panic, s1, d)
      | (.ok ck, s1, d) =>
        match getOrCreateMessageKeys E.C s1 m.senderRatchetKey ck m.struct.counter with
        | (.err e, s2) => (.err e, s2, d)
        | (.panic, s2) => (.panic, s2, d)
        | (.ok mk, s2) =>
          match m.verifyMac E.C E.S m.struct.version s2.remoteIdentity s2.localIdentity mk.macKey with
          | .err e => (.err e, s2, d)
          | .panic => (.panic, s2, d)
          | .ok () =>
            match decryptBody E.C mk (m.struct.cipherText.getD []) with
            | .err e => (.err e, s2, d)
            | .panic => (.panic, s2, d)
            | .ok pt => (.ok (pt, mk), { s2 with pendingPreKey := none }, d)

/-- Advance the random source position when it was read. util/keyhelper/key.go, ecc/curve.go:53-82. -/
def bump (pos : Nat) (d : Bool) : Nat := if d then pos + 1 else pos

/-- session/cipher.go:212-226: try the archived states in order.  `all` is the slice the range
loop iterates over, `i` the position.  On success the code runs
`previousStates = append(previousStates[:i], previousStates[i+1:]...)`, which assigns the
result to a local variable but shifts the elements of the array shared with the record:
afterwards the record's list reads `take i ++ drop (i+1)` followed by its old last element
again.  Then the state is promoted. -/
def tryPrevious (E : Env) (m : SignalMsg) : List Nat → Nat → Rec → Nat →
    Res (Bytes × MsgKeys) × Rec × Nat
  | [], _, r, pos => (.err .noValidSessions, r, pos)
  | a :: rest, i, r, pos =>
    match decryptWithState E (E.rng pos) (r.heap a) m with
    | (.err _, s', d) => tryPrevious E m rest (i + 1) (r.set a s') (bump pos d)
    | (.panic, s', d) => (.panic, r.set a s', bump pos d)
    | (.ok x, s', d) =>
      let r1 := r.set a s'
      let r2 := { r1 with prev := r1.prev.eraseIdx i ++ r1.prev.drop (r1.prev.length - 1) }
      (.ok x, r2.promote a, bump pos d)

/-- session/cipher.go:200-233 `DecryptWithRecord`. -/
def decryptWithRecord (E : Env) (pos : Nat) (r : Rec) (m : SignalMsg) :
    Res (Bytes × MsgKeys) × Rec × Nat :=
  match decryptWithState E (E.rng pos) (r.heap r.cur) m with
  | (.ok x, s', d) => (.ok x, r.set r.cur s', bump pos d)
  | (.panic, s', d) => (.panic, r.set r.cur s', bump pos d)
  | (.err _, s', d) => tryPrevious E m r.prev 0 (r.set r.cur s') (bump pos d)

/-! ### Encrypt (session/cipher.go:65-128) -/

/-- The message-building part of `Encrypt`, session/cipher.go:67-119, on the current state. -/
def encryptState (E : Env) (s : SState) (plaintext : Bytes) : Res CipherMsg × SState :=
  match s.senderChain with
  | none => (.panic, s)
  | some sc =>
    let mk := sc.chainKey.msgKeys E.C
    match encryptBody E.C mk plaintext with
    | .err e => (.err e, s)
    | .panic => (.panic, s)
    | .ok body =>
      match newSignalMessage E.C E.S s.version sc.chainKey.index s.previousCounter mk.macKey sc.pair.pub body
              s.localIdentity s.remoteIdentity with
      | .err e => (.err e, s)
      | .panic => (.panic, s)
      | .ok sm =>
        let s' := { s with senderChain := some { sc with chainKey := sc.chainKey.next E.C } }
        match s.pendingPreKey with
        | none => (.ok (.signal sm), s')
        | some pp =>
          match newPreKeyMessage E.S s.version s.localRegistrationId pp.preKeyId pp.signedPreKeyId pp.baseKey
                  s.localIdentity sm with
          | .err e => (.err e, s)
          | .panic => (.panic, s)
          | .ok pm => (.ok (.preKey pm), s')

/-- session/cipher.go:65-128 `Encrypt` on a loaded record.  The trust check at line 122 has an
empty body, so it has no influence. -/
def encryptRec (E : Env) (a : Addr) (r : Rec) (plaintext : Bytes) : Res CipherMsg × Rec × List Effect :=
  match encryptState E r.state plaintext with
  | (.ok m, s') =>
    let r' := r.set r.cur s'
    (.ok m, r', [.saveIdentity a s'.remoteIdentity, .storeSession a r'])
  | (.err e, s') => (.err e, r.set r.cur s', [])
  | (.panic, s') => (.panic, r.set r.cur s', [])

/-- session/cipher.go:145-159, `DecryptAndGetKey` on a loaded record (again the trust check at
line 152 has an empty body). -/
def decryptRec (E : Env) (pos : Nat) (a : Addr) (r : Rec) (m : SignalMsg) :
    Res (Bytes × MsgKeys) × Rec × Nat × List Effect :=
  match decryptWithRecord E pos r m with
  | (.ok x, r', pos') => (.ok x, r', pos', [.saveIdentity a r'.state.remoteIdentity, .storeSession a r'])
  | (.err e, r', pos') => (.err e, r', pos', [])
  | (.panic, r', pos') => (.panic, r', pos', [])

/-! ### Session building (session/session.go) -/

/-- session/session.go:107-173 `processV3`.  `preKeys`/`signedPreKeys` are the key stores; a
missing signed prekey record is dereferenced (panic). -/
def processV3 (E : Env) (preKeys signedPreKeys : UInt32 → Option IdKeyPair) (r : Rec) (m : PreKeyMsg) :
    Res (Option OptU32) × Rec :=
  if r.hasSessionState m.struct.version (serPub m.baseKey) then (.ok (some OptU32.empty), r)
  else
    match signedPreKeys m.struct.signedPreKeyId with
    | none => (.panic, r)
    | some spk =>
      let oneTime : Res (Option Key32) :=
        match m.struct.preKeyId with
        | none => .ok none
        | some id =>
          match preKeys id.value with
          | none => .err .nilOneTimePreKey
          | some kp => .ok (some kp.priv)
      match oneTime with
      | .err e => (.err e, r)
      | .panic => (.panic, r)
      | .ok ot =>
        let r1 := if r.fresh then r else r.archiveCurrentState
        match calculateReceiverSession E.C
            { ourIdentity := E.identity, ourSignedPreKeyPriv := spk.priv, ourOneTimePriv := ot,
              theirBase := m.baseKey, theirIdentity := m.identityKey } with
        | .err e => (.err e, r1)
        | .panic => (.panic, r1)
        | .ok keys =>
          let s := r1.state
          let s := { s with version := currentVersion, remoteIdentity := some m.identityKey,
                            localIdentity := some E.identity.pub }
          let s := s.setSenderChain ⟨spk.pub, some spk.priv⟩ keys.chain
          let s := { s with rootKey := some keys.root, localRegistrationId := E.registrationId,
                            remoteRegistrationId := m.struct.registrationId,
                            senderBaseKey := some m.baseKey }
          let r2 := r1.set r1.cur s
          let ret : Option OptU32 :=
            match m.struct.preKeyId with
            | none => none
            | some id => if id.value = mediumMaxValue then none else some id
          (.ok ret, r2)

/-- session/session.go:83-102 `Process`. -/
def process (E : Env) (ids : Addr → Option Key32) (preKeys signedPreKeys : UInt32 → Option IdKeyPair)
    (a : Addr) (r : Rec) (m : PreKeyMsg) : Res (Option OptU32) × Rec × List Effect :=
  if E.trusted ids a m.identityKey = false then (.err .untrustedIdentity, r, [])
  else
    match processV3 E preKeys signedPreKeys r m with
    | (.err e, r') => (.err e, r', [])
    | (.panic, r') => (.panic, r', [])
    | (.ok id, r') => (.ok id, r', [.saveIdentity a (some m.identityKey)])

/-- session/cipher.go:167-184 `DecryptMessageReturnKey` on a loaded record. Dereferencing a nil
prekey id after the session has been stored panics (line 180). -/
def decryptPreKeyRec (E : Env) (ids : Addr → Option Key32) (preKeys signedPreKeys : UInt32 → Option IdKeyPair)
    (pos : Nat) (a : Addr) (r : Rec) (m : PreKeyMsg) :
    Res (Bytes × MsgKeys) × Rec × Nat × List Effect :=
  match process E ids preKeys signedPreKeys a r m with
  | (.err e, r1, eff) => (.err e, r1, pos, eff)
  | (.panic, r1, eff) => (.panic, r1, pos, eff)
  | (.ok id, r1, eff) =>
    match decryptWithRecord E pos r1 m.message with
    | (.err e, r2, pos') => (.err e, r2, pos', eff)
    | (.panic, r2, pos') => (.panic, r2, pos', eff)
    | (.ok x, r2, pos') =>
      let eff := eff ++ [.storeSession a r2]
      match id with
      | none => (.panic, r2, pos', eff)
      | some o =>
        if o.isEmpty then (.ok x, r2, pos', eff)
        else (.ok x, r2, pos', eff ++ [.removePreKey o.value])

/-- keys/prekey/bundle.go:33-42 `Bundle`. -/
structure Bundle where
  registrationId : UInt32
  deviceId : UInt32
  preKeyId : Option OptU32
  preKeyPublic : Option Key32
  signedPreKeyId : UInt32
  signedPreKeyPublic : Option Key32
  signature : Sig64
  identityKey : Key32

/-- session/session.go:240-268: the assignments that initialise the sender's state. -/
def initSenderState (E : Env) (s : SState) (b : Bundle) (spk : Key32) (base ratchet : KeyPair)
    (derived sending : SessionKeys) : SState :=
  let s := { s with version := currentVersion, remoteIdentity := some b.identityKey,
                    localIdentity := some E.identity.pub }
  let s := s.addReceiverChain spk derived.chain
  let s := s.setSenderChain ratchet sending.chain
  { s with rootKey := some sending.root,
           pendingPreKey := some ⟨b.preKeyId, b.signedPreKeyId, base.pub⟩,
           localRegistrationId := E.registrationId,
           remoteRegistrationId := b.registrationId,
           senderBaseKey := some base.pub }

/-- session/session.go:178-194: the checks `ProcessBundle` makes before loading the session; the
signed prekey when they pass. -/
def checkBundle (E : Env) (ids : Addr → Option Key32) (a : Addr) (b : Bundle) : Res Key32 :=
  if E.trusted ids a b.identityKey = false then .err .untrustedIdentity
  else
    match b.signedPreKeyPublic with
    | none => .err .noSignedPreKey
    | some spk =>
      if E.C.verify b.identityKey (serPub spk) b.signature = false then .err .invalidSignature
      else .ok spk

/-- session/session.go:197-274: the rest of `ProcessBundle` on the loaded record. -/
def buildFromBundle (E : Env) (pos : Nat) (a : Addr) (r : Rec) (b : Bundle) (spk : Key32) :
    Res Unit × Rec × Nat × List Effect :=
  match generateKeyPair E.C (E.rng pos) with
  | .err e => (.err e, r, pos + 1, [])
  | .panic => (.panic, r, pos + 1, [])
  | .ok base =>
    let r1 := if r.fresh then r else r.archiveCurrentState
    match base.priv with
    | none => (.panic, r1, pos + 1, [])
    | some basePriv =>
      match calculateSenderSession E.C
          { ourIdentity := E.identity, ourBasePriv := basePriv, theirIdentity := b.identityKey,
            theirSignedPreKey := spk, theirOneTime := b.preKeyPublic } with
      | .err e => (.err e, r1, pos + 1, [])
      | .panic => (.panic, r1, pos + 1, [])
      | .ok derived =>
        match generateKeyPair E.C (E.rng (pos + 1)) with
        | .err e => (.err e, r1, pos + 2, [])
        | .panic => (.panic, r1, pos + 2, [])
        | .ok ratchet =>
          match createChain E.C derived.root spk ratchet with
          | .err e => (.err e, r1, pos + 2, [])
          | .panic => (.panic, r1, pos + 2, [])
          | .ok sending =>
            let r2 := r1.set r1.cur (initSenderState E r1.state b spk base ratchet derived sending)
            (.ok (), r2, pos + 2, [.storeSession a r2, .saveIdentity a (some b.identityKey)])

/-- session/cipher.go:188-197 `DecryptWithKey`: decrypt a message with message keys saved earlier
(no MAC check). -/
def decryptWithKey (E : Env) (m : SignalMsg) (k : MsgKeys) : Res Bytes :=
  decryptBody E.C k (m.struct.cipherText.getD [])

end Verif
