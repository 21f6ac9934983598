import Verif.Model.Session
/-
The API against persistent stores.  The library leaves the stores to the application
(state/store/*.go are interfaces); two kinds are modelled:

* `Store` – a serialising session store: `LoadSession` rebuilds a record from the stored
  structure (a new record when there is none), `StoreSession` stores the record's structure.
* `LiveStore` – the store of tests/stores.go:73-123: `LoadSession` returns the stored object
  itself (inserting a new one when absent), so every in-memory mutation is immediately the
  stored state.
-/
namespace Verif

/-- Persistent data of one user with a serialising session store. state/store/*.go. -/
structure Store where
  sessions : Addr → Option SessionStruct
  identities : Addr → Option Key32
  preKeys : UInt32 → Option IdKeyPair
  signedPreKeys : UInt32 → Option IdKeyPair

/-- Overwriting one entry of a map (the application's implementation of state/store/*.go). -/
def upd {α β : Type} [DecidableEq α] (f : α → β) (a : α) (b : β) : α → β :=
  fun x => if x = a then b else f x

/-- `LoadSession` (state/store/session.go:9) of a serialising store.  A record that cannot be
rebuilt is a panic: the interface has no error result. -/
def Store.load (st : Store) (a : Addr) : Res Rec :=
  match st.sessions a with
  | none => .ok Rec.new
  | some s => match Rec.ofStruct s with
    | .ok r => .ok r
    | _ => .panic

/-- One store operation; `none` when `StoreSession` panics while serialising
(state/record/session.go:169-171).  Saving a nil identity leaves no key for the address. -/
def Store.apply (st : Store) (e : Effect) : Option Store :=
  match e with
  | .saveIdentity a k => some { st with identities := upd st.identities a k }
  | .storeSession a r =>
    match r.toStruct with
    | .ok s => some { st with sessions := upd st.sessions a (some s) }
    | _ => none
  | .removePreKey id => some { st with preKeys := upd st.preKeys id none }

/-- Perform a list of store operations; the Bool is false when one of them panicked (the later
ones are then not performed). state/store/*.go. -/
def Store.applyAll (st : Store) : List Effect → Store × Bool
  | [] => (st, true)
  | e :: es =>
    match st.apply e with
    | none => (st, false)
    | some st' => st'.applyAll es

/-- Result of an API call after its store operations. session/cipher.go, session/session.go. -/
def finish {α : Type} (st : Store) (res : Res α) (effs : List Effect) : Res α × Store :=
  match st.applyAll effs with
  | (st', true) => (res, st')
  | (st', false) => (.panic, st')

/-- The store operations an Encrypt call performs, in order, with its result. session/cipher.go:65-129. -/
def Store.encryptTrace (E : Env) (st : Store) (a : Addr) (plaintext : Bytes) : Res CipherMsg × List Effect :=
  match st.load a with
  | .ok r => let (res, _, effs) := encryptRec E a r plaintext; (res, effs)
  | .err e => (.err e, [])
  | .panic => (.panic, [])

/-- session/cipher.go:65 `Encrypt` with a serialising store. -/
def Store.encrypt (E : Env) (st : Store) (a : Addr) (plaintext : Bytes) : Res CipherMsg × Store :=
  let (res, effs) := st.encryptTrace E a plaintext
  finish st res effs

/-- session/cipher.go:140-160 `DecryptAndGetKey`: trace version. -/
def Store.decryptTrace (E : Env) (st : Store) (pos : Nat) (a : Addr) (m : SignalMsg) :
    Res (Bytes × MsgKeys) × Nat × List Effect :=
  match st.sessions a with
  | none => (.err .noSession, pos, [])
  | some _ =>
    match st.load a with
    | .ok r => let (res, _, pos', effs) := decryptRec E pos a r m; (res, pos', effs)
    | .err e => (.err e, pos, [])
    | .panic => (.panic, pos, [])

/-- session/cipher.go:132-160 `Decrypt`. -/
def Store.decrypt (E : Env) (st : Store) (pos : Nat) (a : Addr) (m : SignalMsg) :
    Res (Bytes × MsgKeys) × Store × Nat :=
  let (res, pos', effs) := st.decryptTrace E pos a m
  let (res', st') := finish st res effs
  (res', st', pos')

/-- session/cipher.go:167-184 `DecryptMessageReturnKey`: trace version. -/
def Store.decryptPreKeyTrace (E : Env) (st : Store) (pos : Nat) (a : Addr) (m : PreKeyMsg) :
    Res (Bytes × MsgKeys) × Nat × List Effect :=
  match st.load a with
  | .ok r =>
    let (res, _, pos', effs) := decryptPreKeyRec E st.identities st.preKeys st.signedPreKeys pos a r m
    (res, pos', effs)
  | .err e => (.err e, pos, [])
  | .panic => (.panic, pos, [])

/-- session/cipher.go:162-184 `DecryptMessage`. -/
def Store.decryptPreKey (E : Env) (st : Store) (pos : Nat) (a : Addr) (m : PreKeyMsg) :
    Res (Bytes × MsgKeys) × Store × Nat :=
  let (res, pos', effs) := st.decryptPreKeyTrace E pos a m
  let (res', st') := finish st res effs
  (res', st', pos')

/-- session/session.go:177-275 `ProcessBundle`: trace version; the session is loaded after the checks. -/
def Store.processBundleTrace (E : Env) (st : Store) (pos : Nat) (a : Addr) (b : Bundle) :
    Res Unit × Nat × List Effect :=
  match checkBundle E st.identities a b with
  | .err e => (.err e, pos, [])
  | .panic => (.panic, pos, [])
  | .ok spk =>
    match st.load a with
    | .ok r => let (res, _, pos', effs) := buildFromBundle E pos a r b spk; (res, pos', effs)
    | .err e => (.err e, pos, [])
    | .panic => (.panic, pos, [])

/-- session/session.go:177-275 `ProcessBundle`. -/
def Store.processBundle (E : Env) (st : Store) (pos : Nat) (a : Addr) (b : Bundle) :
    Res Unit × Store × Nat :=
  let (res, pos', effs) := st.processBundleTrace E pos a b
  let (res', st') := finish st res effs
  (res', st', pos')

/-! ### Live store -/

/-- Persistent data of one user with the live in-memory store of tests/stores.go. -/
structure LiveStore where
  sessions : Addr → Option Rec
  identities : Addr → Option Key32
  preKeys : UInt32 → Option IdKeyPair
  signedPreKeys : UInt32 → Option IdKeyPair

/-- tests/stores.go:86-94 `LoadSession`. -/
def LiveStore.load (st : LiveStore) (a : Addr) : Rec := (st.sessions a).getD Rec.new

/-- Store operations other than the session object itself, which is shared by pointer. state/store/*.go. -/
def LiveStore.apply (st : LiveStore) (e : Effect) : LiveStore :=
  match e with
  | .saveIdentity a k => { st with identities := upd st.identities a k }
  | .storeSession a r => { st with sessions := upd st.sessions a (some r) }
  | .removePreKey id => { st with preKeys := upd st.preKeys id none }

/-- After a call the stored object is the mutated object `r`, whatever the result. state/store/session.go:9-10. -/
def LiveStore.finish (st : LiveStore) (a : Addr) (r : Rec) (effs : List Effect) : LiveStore :=
  effs.foldl LiveStore.apply { st with sessions := upd st.sessions a (some r) }

/-- session/cipher.go:65-128 `Encrypt`, with a store that hands out the stored object. -/
def LiveStore.encrypt (E : Env) (st : LiveStore) (a : Addr) (plaintext : Bytes) : Res CipherMsg × LiveStore :=
  let (res, r, effs) := encryptRec E a (st.load a) plaintext
  (res, st.finish a r effs)

/-- session/cipher.go:132-160 `Decrypt`, with a store that hands out the stored object. -/
def LiveStore.decrypt (E : Env) (st : LiveStore) (pos : Nat) (a : Addr) (m : SignalMsg) :
    Res (Bytes × MsgKeys) × LiveStore × Nat :=
  match st.sessions a with
  | none => (.err .noSession, st, pos)
  | some r0 =>
    let (res, r, pos', effs) := decryptRec E pos a r0 m
    (res, st.finish a r effs, pos')

/-- session/cipher.go:162-184 `DecryptMessage`, with a store that hands out the stored object. -/
def LiveStore.decryptPreKey (E : Env) (st : LiveStore) (pos : Nat) (a : Addr) (m : PreKeyMsg) :
    Res (Bytes × MsgKeys) × LiveStore × Nat :=
  let (res, r, pos', effs) := decryptPreKeyRec E st.identities st.preKeys st.signedPreKeys pos a (st.load a) m
  (res, st.finish a r effs, pos')

/-- session/session.go:177-275 `ProcessBundle` with the live store: the record is loaded (and inserted when
absent) only after the bundle checks passed. -/
def LiveStore.processBundle (E : Env) (st : LiveStore) (pos : Nat) (a : Addr) (b : Bundle) :
    Res Unit × LiveStore × Nat :=
  match checkBundle E st.identities a b with
  | .err e => (.err e, st, pos)
  | .panic => (.panic, st, pos)
  | .ok spk =>
    let (res, r, pos', effs) := buildFromBundle E pos a (st.load a) b spk
    (res, st.finish a r effs, pos')

end Verif
