import Verif.Model.Store
import Verif.Model.Groups
import Verif.Spec.Steps
/-
Receiving messages, with a step for every call of a cryptographic primitive: HMAC, Diffie-Hellman, AES-CBC, key generation, signature check.  The functions of Model/Session.lean and
Model/Groups.lean again, with the calls recorded; Props/Work.lean proves that they return the same.
-/
namespace Verif
open Verif.Steps

/-- One HMAC. crypto/hmac, called by keys/chain/key.go:107-112, kdf/hkdf.go:18-31, protocol/signal_message.go:213-228. -/
def wHmac (C : Crypto) (k m : Bytes) : Timed Key32 := do tick (.lib "hmac" [k.length, m.length]); return C.hmac k m
/-- One Diffie-Hellman. kdf/hkdf.go:35-40 `CalculateSharedSecret`. -/
def wDh (C : Crypto) (their our : Key32) : Timed Key32 := do tick (.lib "dh" [32, 32]); return C.dh their our

/-- The expand phase of HKDF, as in Model/Crypto `hkdfBlocks`. Called by kdf/hkdf.go:18-31. -/
def wBlocks (C : Crypto) (prk info : Bytes) : Nat → Bytes → Nat → Timed Bytes
  | 0, _, _ => return []
  | count + 1, prev, i => do
    let t ← wHmac C prk (prev ++ info ++ [UInt8.ofNat i])
    let rest ← wBlocks C prk info count t.bytes (i + 1)
    return t.bytes ++ rest

/-- kdf/hkdf.go:18-31 `DeriveSecrets`. -/
def wDerive (C : Crypto) (ikm : Bytes) (salt : Option Bytes) (info : Bytes) (n : Nat) : Timed (Res Bytes) :=
  if 255 * 32 < n then return .err .kdfTooLong
  else do
    let prk ← wHmac C (salt.getD (List.replicate 32 0)) ikm
    let b ← wBlocks C prk.bytes info ((n + 31) / 32) [] 1
    return .ok (b.take n)

/-- keys/chain/key.go:84-87 `NextKey`. -/
def wNext (C : Crypto) (c : ChainKey) : Timed ChainKey := do
  let k ← wHmac C c.key [0x02]
  return ⟨k.bytes, c.index + 1⟩

/-- keys/chain/key.go:90-104,116-128 `MessageKeys`. -/
def wMsgKeys (C : Crypto) (c : ChainKey) : Timed MsgKeys := do
  let k ← wHmac C c.key [0x01]
  let b ← wDerive C k.bytes none (ascii "WhisperMessageKeys") 80
  return match b with
    | .ok b => ⟨b.take 32, (b.drop 32).take 32, (b.drop 64).take 16, c.index⟩
    | _ => ⟨[], [], [], c.index⟩

/-- keys/root/key.go:41-66 `CreateChain`. -/
def wCreateChain (C : Crypto) (root : Bytes) (their : Key32) (our : KeyPair) : Timed (Res SessionKeys) :=
  match our.priv with
  | none => return .panic
  | some priv => do
    let d ← wDh C their priv
    let b ← wDerive C d.bytes (some root) (ascii "WhisperRatchet") 64
    return b.map SessionKeys.ofSecrets

/-- ecc/curve.go:53-82 `GenerateKeyPair`. -/
def wGenerateKeyPair (C : Crypto) (draw : Option Key32) : Timed (Res KeyPair) := do
  tick (.lib "scalarBaseMult" [32])
  return generateKeyPair C draw

/-- session/cipher.go:299-303, the loop storing skipped message keys. -/
def wSkipLoop (C : Crypto) (eph : Key32) (counter : UInt32) : Nat → SState → ChainKey → Timed (Res ChainKey × SState)
  | 0, s, ck => return (.ok ck, s)
  | fuel + 1, s, ck =>
    if ck.index < counter then do
      let mk ← wMsgKeys C ck
      match s.setMessageKeys eph mk with
      | .ok s' => do
        let ck' ← wNext C ck
        wSkipLoop C eph counter fuel s' ck'
      | .err e => return (.err e, s)
      | .panic => return (.panic, s)
    else return (.ok ck, s)

/-- session/cipher.go:281-307 `getOrCreateMessageKeys`. -/
def wGetOrCreateMessageKeys (C : Crypto) (s : SState) (eph : Key32) (ck : ChainKey) (counter : UInt32) : Timed (Res MsgKeys × SState) :=
  if counter < ck.index then
    match s.hasMessageKeys eph counter with
    | .ok true => return s.removeMessageKeys eph counter
    | .ok false => return (.err .oldCounter, s)
    | .err e => return (.err e, s)
    | .panic => return (.panic, s)
  else if maxFutureMessages < counter - ck.index then return (.err .tooFarFuture, s)
  else do
    let x ← wSkipLoop C eph counter (counter - ck.index).toNat s ck
    match x with
    | (.ok ck', s') => do
      let nk ← wNext C ck'
      match s'.setReceiverChainKey eph nk with
      | .ok s'' => do
        let mk ← wMsgKeys C ck'
        return (.ok mk, s'')
      | .err e => return (.err e, s')
      | .panic => return (.panic, s')
    | (.err e, s') => return (.err e, s')
    | (.panic, s') => return (.panic, s')

/-- session/cipher.go:311-347 `getOrCreateChainKey`. -/
def wGetOrCreateChainKey (C : Crypto) (draw : Option Key32) (s : SState) (eph : Key32) : Timed (Res ChainKey × SState × Bool) :=
  match s.receiverChain eph with
  | some c => return (.ok c.chainKey, s, false)
  | none =>
    match s.rootKey, s.senderChain with
    | some root, some sc => do
      let x ← wCreateChain C root eph sc.pair
      match x with
      | .err e => return (.err e, s, false)
      | .panic => return (.panic, s, false)
      | .ok recv => do
        let y ← wGenerateKeyPair C draw
        match y with
        | .err e => return (.err e, s, true)
        | .panic => return (.panic, s, true)
        | .ok ourNew => do
          let z ← wCreateChain C recv.root eph ourNew
          match z with
          | .err e => return (.err e, s, true)
          | .panic => return (.panic, s, true)
          | .ok send =>
            let s1 := { s with rootKey := some send.root }
            let s2 := s1.addReceiverChain eph recv.chain
            let s3 := { s2 with previousCounter := maxU32 (sc.chainKey.index - 1) 0 }
            return (.ok recv.chain, s3.setSenderChain ourNew send.chain, true)
    | _, _ => return (.panic, s, false)

/-- protocol/signal_message.go:150-192 `VerifyMac`: one HMAC (counted also when the message cannot be serialised again and no HMAC is computed). -/
def wVerifyMac (C : Crypto) (S : Ser SMStruct) (m : SignalMsg) (version : Int) (sender receiver : Option Key32) (macKey : Bytes) : Timed (Res Unit) := do
  tick (.lib "hmac" [macKey.length])
  return m.verifyMac C S version sender receiver macKey

/-- session/cipher.go:351-354 `decrypt`: one AES-CBC decryption of the body. -/
def wDecryptBody (C : Crypto) (k : MsgKeys) (body : Bytes) : Timed (Res Bytes) := do
  tick (.lib "aes-cbc" [body.length])
  return decryptBody C k body

/-- session/cipher.go:236-279 `DecryptWithState`. -/
def wDecryptWithState (E : Env) (draw : Option Key32) (s : SState) (m : SignalMsg) : Timed (Res (Bytes × MsgKeys) × SState × Bool) :=
  match s.senderChain with
  | none => return (.err .uninitialized, s, false)
  | some _ =>
    if m.struct.version ≠ s.version then return (.err .wrongVersion, s, false)
    else do
      let x ← wGetOrCreateChainKey E.C draw s m.senderRatchetKey
      match x with
      | (.err e, s1, d) => return (.err e, s1, d)
      | (.panic, s1, d) => return (.panic, s1, d)
      | (.ok ck, s1, d) => do
        let y ← wGetOrCreateMessageKeys E.C s1 m.senderRatchetKey ck m.struct.counter
        match y with
        | (.err e, s2) => return (.err e, s2, d)
        | (.panic, s2) => return (.panic, s2, d)
        | (.ok mk, s2) => do
          let v ← wVerifyMac E.C E.S m m.struct.version s2.remoteIdentity s2.localIdentity mk.macKey
          match v with
          | .err e => return (.err e, s2, d)
          | .panic => return (.panic, s2, d)
          | .ok () => do
            let p ← wDecryptBody E.C mk (m.struct.cipherText.getD [])
            match p with
            | .err e => return (.err e, s2, d)
            | .panic => return (.panic, s2, d)
            | .ok pt => return (.ok (pt, mk), { s2 with pendingPreKey := none }, d)

/-- session/cipher.go:212-226: try the archived states in order. -/
def wTryPrevious (E : Env) (m : SignalMsg) : List Nat → Nat → Rec → Nat → Timed (Res (Bytes × MsgKeys) × Rec × Nat)
  | [], _, r, pos => return (.err .noValidSessions, r, pos)
  | a :: rest, i, r, pos => do
    let x ← wDecryptWithState E (E.rng pos) (r.heap a) m
    match x with
    | (.err _, s', d) => wTryPrevious E m rest (i + 1) (r.set a s') (bump pos d)
    | (.panic, s', d) => return (.panic, r.set a s', bump pos d)
    | (.ok x, s', d) =>
      let r1 := r.set a s'
      let r2 := { r1 with prev := r1.prev.eraseIdx i ++ r1.prev.drop (r1.prev.length - 1) }
      return (.ok x, r2.promote a, bump pos d)

/-- session/cipher.go:200-233 `DecryptWithRecord`. -/
def wDecryptWithRecord (E : Env) (pos : Nat) (r : Rec) (m : SignalMsg) : Timed (Res (Bytes × MsgKeys) × Rec × Nat) := do
  let x ← wDecryptWithState E (E.rng pos) (r.heap r.cur) m
  match x with
  | (.ok x, s', d) => return (.ok x, r.set r.cur s', bump pos d)
  | (.panic, s', d) => return (.panic, r.set r.cur s', bump pos d)
  | (.err _, s', d) => wTryPrevious E m r.prev 0 (r.set r.cur s') (bump pos d)

/-- session/cipher.go:145-159 `DecryptAndGetKey` on a loaded record. -/
def wDecryptRec (E : Env) (pos : Nat) (a : Addr) (r : Rec) (m : SignalMsg) : Timed (Res (Bytes × MsgKeys) × Rec × Nat × List Effect) := do
  let x ← wDecryptWithRecord E pos r m
  return match x with
    | (.ok x, r', pos') => (.ok x, r', pos', [.saveIdentity a r'.state.remoteIdentity, .storeSession a r'])
    | (.err e, r', pos') => (.err e, r', pos', [])
    | (.panic, r', pos') => (.panic, r', pos', [])

/-- ratchet/ratchet.go:94-156 `CalculateReceiverSession`. -/
def wReceiverSession (C : Crypto) (p : ReceiverParams) : Timed (Res SessionKeys) := do
  let d1 ← wDh C p.theirIdentity p.ourSignedPreKeyPriv
  let d2 ← wDh C p.theirBase p.ourIdentity.priv
  let d3 ← wDh C p.theirBase p.ourSignedPreKeyPriv
  let master := discontinuity ++ d1.bytes ++ d2.bytes ++ d3.bytes
  match p.ourOneTimePriv with
  | none => do
    let b ← wDerive C master none (ascii "WhisperText") 64
    return b.map SessionKeys.ofSecrets
  | some k => do
    let d4 ← wDh C p.theirBase k
    let b ← wDerive C (master ++ d4.bytes) none (ascii "WhisperText") 64
    return b.map SessionKeys.ofSecrets

/-- session/session.go:107-173 `processV3`. -/
def wProcessV3 (E : Env) (preKeys signedPreKeys : UInt32 → Option IdKeyPair) (r : Rec) (m : PreKeyMsg) : Timed (Res (Option OptU32) × Rec) :=
  if r.hasSessionState m.struct.version (serPub m.baseKey) then return (.ok (some OptU32.empty), r)
  else
    match signedPreKeys m.struct.signedPreKeyId with
    | none => return (.panic, r)
    | some spk =>
      let oneTime : Res (Option Key32) :=
        match m.struct.preKeyId with
        | none => .ok none
        | some id =>
          match preKeys id.value with
          | none => .err .nilOneTimePreKey
          | some kp => .ok (some kp.priv)
      match oneTime with
      | .err e => return (.err e, r)
      | .panic => return (.panic, r)
      | .ok ot => do
        let r1 := if r.fresh then r else r.archiveCurrentState
        let x ← wReceiverSession E.C
            { ourIdentity := E.identity, ourSignedPreKeyPriv := spk.priv, ourOneTimePriv := ot,
              theirBase := m.baseKey, theirIdentity := m.identityKey }
        match x with
        | .err e => return (.err e, r1)
        | .panic => return (.panic, r1)
        | .ok keys =>
          let s := r1.state
          let s := { s with version := currentVersion, remoteIdentity := some m.identityKey,
                            localIdentity := some E.identity.pub }
          let s := s.setSenderChain ⟨spk.pub, some spk.priv⟩ keys.chain
          let s := { s with rootKey := some keys.root, localRegistrationId := E.registrationId,
                            remoteRegistrationId := m.struct.registrationId,
                            senderBaseKey := some m.baseKey }
          let r2 := r1.set r1.cur s
          let ret : Option OptU32 :=
            match m.struct.preKeyId with
            | none => none
            | some id => if id.value = mediumMaxValue then none else some id
          return (.ok ret, r2)

/-- session/session.go:83-102 `Process`. -/
def wProcess (E : Env) (ids : Addr → Option Key32) (preKeys signedPreKeys : UInt32 → Option IdKeyPair) (a : Addr) (r : Rec) (m : PreKeyMsg) :
    Timed (Res (Option OptU32) × Rec × List Effect) :=
  if E.trusted ids a m.identityKey = false then return (.err .untrustedIdentity, r, [])
  else do
    let x ← wProcessV3 E preKeys signedPreKeys r m
    return match x with
    | (.err e, r') => (.err e, r', [])
    | (.panic, r') => (.panic, r', [])
    | (.ok id, r') => (.ok id, r', [.saveIdentity a (some m.identityKey)])

/-- session/cipher.go:167-184 `DecryptMessageReturnKey` on a loaded record. -/
def wDecryptPreKeyRec (E : Env) (ids : Addr → Option Key32) (preKeys signedPreKeys : UInt32 → Option IdKeyPair) (pos : Nat) (a : Addr) (r : Rec) (m : PreKeyMsg) :
    Timed (Res (Bytes × MsgKeys) × Rec × Nat × List Effect) := do
  let x ← wProcess E ids preKeys signedPreKeys a r m
  match x with
  | (.err e, r1, eff) => return (.err e, r1, pos, eff)
  | (.panic, r1, eff) => return (.panic, r1, pos, eff)
  | (.ok id, r1, eff) => do
    let y ← wDecryptWithRecord E pos r1 m.message
    return match y with
      | (.err e, r2, pos') => (.err e, r2, pos', eff)
      | (.panic, r2, pos') => (.panic, r2, pos', eff)
      | (.ok x, r2, pos') =>
        let eff := eff ++ [.storeSession a r2]
        match id with
        | none => (.panic, r2, pos', eff)
        | some o =>
          if o.isEmpty then (.ok x, r2, pos', eff)
          else (.ok x, r2, pos', eff ++ [.removePreKey o.value])

/-- session/cipher.go:67-119, the message-building part of `Encrypt`: keys, one AES-CBC encryption, one HMAC (in `NewSignalMessage`), the next chain key. -/
def wEncryptState (E : Env) (s : SState) (plaintext : Bytes) : Timed (Res CipherMsg × SState) :=
  match s.senderChain with
  | none => return (.panic, s)
  | some sc => do
    let mk ← wMsgKeys E.C sc.chainKey
    tick (.lib "aes-cbc" [plaintext.length])
    match encryptBody E.C mk plaintext with
    | .err e => return (.err e, s)
    | .panic => return (.panic, s)
    | .ok body => do
      tick (.lib "hmac" [mk.macKey.length])
      match newSignalMessage E.C E.S s.version sc.chainKey.index s.previousCounter mk.macKey sc.pair.pub body
              s.localIdentity s.remoteIdentity with
      | .err e => return (.err e, s)
      | .panic => return (.panic, s)
      | .ok sm => do
        let nk ← wNext E.C sc.chainKey
        let s' := { s with senderChain := some { sc with chainKey := nk } }
        match s.pendingPreKey with
        | none => return (.ok (.signal sm), s')
        | some pp =>
          match newPreKeyMessage E.S s.version s.localRegistrationId pp.preKeyId pp.signedPreKeyId pp.baseKey
                  s.localIdentity sm with
          | .err e => return (.err e, s)
          | .panic => return (.panic, s)
          | .ok pm => return (.ok (.preKey pm), s')

/-- session/cipher.go:65-128 `Encrypt` on a loaded record. -/
def wEncryptRec (E : Env) (a : Addr) (r : Rec) (plaintext : Bytes) : Timed (Res CipherMsg × Rec × List Effect) := do
  let x ← wEncryptState E r.state plaintext
  return match x with
  | (.ok m, s') =>
    let r' := r.set r.cur s'
    (.ok m, r', [.saveIdentity a s'.remoteIdentity, .storeSession a r'])
  | (.err e, s') => (.err e, r.set r.cur s', [])
  | (.panic, s') => (.panic, r.set r.cur s', [])

/-- groups/ratchet/sender_chain_key.go:51-53 `SenderMessageKey`. -/
def wSMKey (C : Crypto) (k : SChainKey) : Timed (Res SMKey) := do
  let seed ← wHmac C k.key [0x01]
  let d ← wDerive C seed.bytes none (ascii "WhisperGroup") 48
  return d.bind fun d => (split d 16 32).map fun (iv, key) => ⟨k.iteration, iv, key, seed.bytes⟩

/-- groups/ratchet/sender_chain_key.go:55-57 `Next`. -/
def wSNext (C : Crypto) (k : SChainKey) : Timed SChainKey := do
  let d ← wHmac C k.key [0x02]
  return ⟨k.iteration + 1, d.bytes⟩

/-- groups/cipher.go:132-139, the loop storing skipped keys. -/
def wGroupSkip (C : Crypto) (iteration : UInt32) : Nat → SKState → SChainKey → Timed (Res SChainKey × SKState)
  | 0, s, ck => return (.ok ck, s)
  | fuel + 1, s, ck =>
    if ck.iteration < iteration then do
      let x ← wSMKey C ck
      match x with
      | .ok k => do
        let ck' ← wSNext C ck
        wGroupSkip C iteration fuel (s.addKey k) ck'
      | .err e => return (.err e, s)
      | .panic => return (.panic, s)
    else return (.ok ck, s)

/-- groups/cipher.go:117-143 `getSenderKey`. -/
def wGetSenderKey (C : Crypto) (s : SKState) (iteration : UInt32) : Timed (Res (Option SMKey) × SKState) :=
  if iteration < s.chain.iteration then
    if s.hasKey iteration then
      let (k, s') := s.removeKey iteration
      return (.ok k, s')
    else return (.err .oldCounter, s)
  else if 2000 < iteration - s.chain.iteration then return (.err .tooFarFuture, s)
  else do
    let x ← wGroupSkip C iteration (iteration - s.chain.iteration).toNat s s.chain
    match x with
    | (.ok ck, s') => do
      let nk ← wSNext C ck
      let mk ← wSMKey C ck
      return (mk.map some, { s' with chain := nk })
    | (.err e, s') => return (.err e, s')
    | (.panic, s') => return (.panic, s')

/-- groups/cipher.go:73-107 `Decrypt` on the loaded record. -/
def wGroupDecrypt (C : Crypto) (S : Ser SKStruct) (r : Option GRec) (m : SenderKeyMsg) : Timed (Res Bytes × Option GRec × Bool) :=
  match r with
  | none => return (.panic, none, false)
  | some [] => return (.err .noSenderKeyRecord, r, false)
  | some (s0 :: rest) =>
    let l := s0 :: rest
    match l.find? (fun s => s.keyId == m.keyId) with
    | none => return (.err .noSenderKeyForId, r, false)
    | some s =>
      match m.serialize S with
      | .err e => return (.err e, r, false)
      | .panic => return (.panic, r, false)
      | .ok body => do
        tick (.lib "verify" [32, body.length, 64])
        if C.verify s.signing.pub body m.sig = false then return (.err .signatureFailed, r, false)
        else do
          let x ← wGetSenderKey C s m.iteration
          let r' := some (modifyFirst (fun s => s.keyId == m.keyId) (fun _ => x.2) l)
          match x.1 with
          | .err e => return (.err e, r', false)
          | .panic => return (.panic, r', false)
          | .ok none => return (.panic, r', false)
          | .ok (some mk) => do
            tick (.lib "aes-cbc" [(m.ciphertext.getD []).length])
            match decryptCbc C (some mk.iv) mk.cipherKey (m.ciphertext.getD []) with
            | .err e => return (.err e, r', false)
            | .panic => return (.panic, r', false)
            | .ok pt => return (.ok pt, r', true)

end Verif
