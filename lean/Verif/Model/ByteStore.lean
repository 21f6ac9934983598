import Verif.Model.Store
import Verif.Model.JsonTypes
/-
Stores that hold nothing but bytes, as an application with a database writes them, and API calls as data.
-/
namespace Verif

/-- Persistent data of one user as bytes: `StoreSession` keeps `Serialize()`, `LoadSession` rebuilds the record with `NewSessionFromBytes`;
prekeys and signed prekeys are kept as `Serialize()` wrote them (state/store/session.go, state/store/prekey.go, state/store/signed.go are
interfaces, implemented by the application). -/
structure ByteStore where
  sessions : Addr → Option Bytes
  identities : Addr → Option Key32
  preKeys : UInt32 → Option Bytes
  signedPreKeys : UInt32 → Option Bytes

/-- `LoadSession`; bytes that do not parse are a panic, as the interface has no error result. state/store/session.go:9. -/
def ByteStore.load (st : ByteStore) (a : Addr) : Res Rec :=
  match st.sessions a with
  | none => .ok Rec.new
  | some b => match Rec.ofBytes b with
    | .ok r => .ok r
    | _ => .panic

/-- `LoadPreKey(id).KeyPair()` (`nil` when missing or unreadable), with `NewPreKeyFromBytes` (state/record/prekey.go:15-22). -/
def ByteStore.preKeyPair (st : ByteStore) (id : UInt32) : Option IdKeyPair :=
  (st.preKeys id).bind fun b => match PreKey.ofBytes b with
    | .ok k => some k.pair
    | _ => none

/-- `LoadSignedPreKey(id).KeyPair()`, with `NewSignedPreKeyFromBytes` (state/record/signed_prekey.go:17-25). -/
def ByteStore.signedPreKeyPair (st : ByteStore) (id : UInt32) : Option IdKeyPair :=
  (st.signedPreKeys id).bind fun b => match SignedPreKey.ofBytes b with
    | .ok k => some k.pair
    | _ => none

/-- One store operation (compare `Store.apply`). state/store/*.go. -/
def ByteStore.apply (st : ByteStore) (e : Effect) : Option ByteStore :=
  match e with
  | .saveIdentity a k => some { st with identities := upd st.identities a k }
  | .storeSession a r =>
    match r.serialize with
    | .ok b => some { st with sessions := upd st.sessions a (some b) }
    | _ => none
  | .removePreKey id => some { st with preKeys := upd st.preKeys id none }

/-- The store calls of one API call in program order (as `Store.applyAll`; state/store/*.go). -/
def ByteStore.applyAll (st : ByteStore) : List Effect → ByteStore × Bool
  | [] => (st, true)
  | e :: es =>
    match st.apply e with
    | none => (st, false)
    | some st' => st'.applyAll es

/-- As `finish` of Model/Store (session/cipher.go, session/session.go). -/
def ByteStore.finish {α : Type} (st : ByteStore) (res : Res α) (effs : List Effect) : Res α × ByteStore :=
  match st.applyAll effs with
  | (st', true) => (res, st')
  | (st', false) => (.panic, st')

/-- session/cipher.go:65 `Encrypt`. -/
def ByteStore.encrypt (E : Env) (st : ByteStore) (a : Addr) (plaintext : Bytes) : Res CipherMsg × ByteStore :=
  match st.load a with
  | .ok r => let (res, _, effs) := encryptRec E a r plaintext; st.finish res effs
  | .err e => (.err e, st)
  | .panic => (.panic, st)

/-- session/cipher.go:132-160 `Decrypt`. -/
def ByteStore.decrypt (E : Env) (st : ByteStore) (pos : Nat) (a : Addr) (m : SignalMsg) : Res (Bytes × MsgKeys) × ByteStore × Nat :=
  match st.sessions a with
  | none => (.err .noSession, st, pos)
  | some _ =>
    match st.load a with
    | .ok r => let (res, _, pos', effs) := decryptRec E pos a r m; let x := st.finish res effs; (x.1, x.2, pos')
    | .err e => (.err e, st, pos)
    | .panic => (.panic, st, pos)

/-- session/cipher.go:162-184 `DecryptMessage`. -/
def ByteStore.decryptPreKey (E : Env) (st : ByteStore) (pos : Nat) (a : Addr) (m : PreKeyMsg) : Res (Bytes × MsgKeys) × ByteStore × Nat :=
  match st.load a with
  | .ok r =>
    let (res, _, pos', effs) := decryptPreKeyRec E st.identities st.preKeyPair st.signedPreKeyPair pos a r m
    let x := st.finish res effs
    (x.1, x.2, pos')
  | .err e => (.err e, st, pos)
  | .panic => (.panic, st, pos)

/-- session/session.go:177-275 `ProcessBundle`. -/
def ByteStore.processBundle (E : Env) (st : ByteStore) (pos : Nat) (a : Addr) (b : Bundle) : Res Unit × ByteStore × Nat :=
  match checkBundle E st.identities a b with
  | .err e => (.err e, st, pos)
  | .panic => (.panic, st, pos)
  | .ok spk =>
    match st.load a with
    | .ok r => let (res, _, pos', effs) := buildFromBundle E pos a r b spk; let x := st.finish res effs; (x.1, x.2, pos')
    | .err e => (.err e, st, pos)
    | .panic => (.panic, st, pos)

/-! ### Calls as data -/

/-- A call of the library's session API. session/cipher.go:65, 132, 162; session/session.go:177. -/
inductive Call where
  | encrypt (a : Addr) (plaintext : Bytes)
  | decrypt (a : Addr) (m : SignalMsg)
  | decryptPreKey (a : Addr) (m : PreKeyMsg)
  | processBundle (a : Addr) (b : Bundle)

/-- The address a call is about: the argument of session/cipher.go:23-33 `NewCipher` and session/session.go:26-42 `NewBuilder`. -/
def Call.addr : Call → Addr
  | .encrypt a _ | .decrypt a _ | .decryptPreKey a _ | .processBundle a _ => a

/-- What it returned. The results of session/cipher.go:65, 132, 162 and session/session.go:177. -/
inductive Answer where
  | encrypted (r : Res CipherMsg)
  | decrypted (r : Res (Bytes × MsgKeys))
  | processed (r : Res Unit)

/-- Dispatch to session/cipher.go:65, 132, 162 and session/session.go:177. -/
def Store.call (E : Env) (st : Store) (pos : Nat) : Call → Answer × Store × Nat
  | .encrypt a pt => let x := st.encrypt E a pt; (.encrypted x.1, x.2, pos)
  | .decrypt a m => let x := st.decrypt E pos a m; (.decrypted x.1, x.2)
  | .decryptPreKey a m => let x := st.decryptPreKey E pos a m; (.decrypted x.1, x.2)
  | .processBundle a b => let x := st.processBundle E pos a b; (.processed x.1, x.2)

/-- As `Store.call`, with stores of bytes (session/cipher.go, session/session.go). -/
def ByteStore.call (E : Env) (st : ByteStore) (pos : Nat) : Call → Answer × ByteStore × Nat
  | .encrypt a pt => let x := st.encrypt E a pt; (.encrypted x.1, x.2, pos)
  | .decrypt a m => let x := st.decrypt E pos a m; (.decrypted x.1, x.2)
  | .decryptPreKey a m => let x := st.decryptPreKey E pos a m; (.decrypted x.1, x.2)
  | .processBundle a b => let x := st.processBundle E pos a b; (.processed x.1, x.2)

/-- An application: what it calls next, given all answers so far (`none`: it stops). The program using session/cipher.go and session/session.go. -/
abbrev App := List Answer → Option Call

/-- The answers of the first `n` calls an application makes. (no .go counterpart: this is the application.) -/
def Store.run (E : Env) (app : App) : Nat → Store → Nat → List Answer → List Answer
  | 0, _, _, h => h
  | n + 1, st, pos, h =>
    match app h with
    | none => h
    | some c => let x := st.call E pos c; x.2.1.run E app n x.2.2 (h ++ [x.1])

/-- As `Store.run`, with stores of bytes (no .go counterpart: this is the application). -/
def ByteStore.run (E : Env) (app : App) : Nat → ByteStore → Nat → List Answer → List Answer
  | 0, _, _, h => h
  | n + 1, st, pos, h =>
    match app h with
    | none => h
    | some c => let x := st.call E pos c; x.2.1.run E app n x.2.2 (h ++ [x.1])

end Verif
