import Verif.Model.Store
/-
Concurrent Encrypt calls for one address on a shared serialising store.  session/cipher.go:65-128 takes no lock; a call
touches the shared stores three times: `LoadSession` (line 66), `SaveIdentity` (line 125) and `StoreSession` (line 126).
Everything in between is local to the goroutine (a serialising store hands out a new record object on each load), so the
interleavings of these three steps are all that can be observed.
-/
namespace Verif

/-- Where a goroutine is inside `Encrypt`. session/cipher.go:65-129. -/
inductive EncPc where
  | idle
  | loaded (pt : Bytes) (r : Rec)
  | saved (cm : CipherMsg) (r : Rec)

/-- A goroutine: its position and the plaintexts it still has to send. session/cipher.go:65-129. -/
structure EncThread where
  pc : EncPc
  todo : List Bytes

/-- The shared stores, the lock of the application (used only when `mutex` is true below), the goroutines, and the messages
returned by Encrypt so far, in the order in which the calls returned. session/cipher.go:65-129. -/
structure EncSys where
  store : Store
  lock : Option Nat
  threads : Nat → EncThread
  out : List (Nat × CipherMsg)

/-- One step of goroutine `i`.  session/cipher.go:65-128.  With `mutex` the application holds one lock per Encrypt call; a goroutine
that cannot get it does nothing. -/
def EncSys.step (E : Env) (a : Addr) (mutex : Bool) (x : EncSys) (i : Nat) : EncSys :=
  if mutex && (x.lock.isSome && x.lock != some i) then x else
  match x.threads i with
  | ⟨.idle, []⟩ => x
  | ⟨.idle, pt :: todo⟩ =>
    match x.store.load a with
    | .ok r => { x with lock := some i, threads := upd x.threads i ⟨.loaded pt r, todo⟩ }
    | _ => { x with threads := upd x.threads i ⟨.idle, todo⟩ }
  | ⟨.loaded pt r, todo⟩ =>
    match encryptState E r.state pt with
    | (.ok cm, s') =>
      { x with store := { x.store with identities := upd x.store.identities a s'.remoteIdentity },
               threads := upd x.threads i ⟨.saved cm (r.set r.cur s'), todo⟩ }
    | _ => { x with lock := none, threads := upd x.threads i ⟨.idle, todo⟩ }
  | ⟨.saved cm r, todo⟩ =>
    match x.store.apply (.storeSession a r) with
    | some st => { x with store := st, lock := none, threads := upd x.threads i ⟨.idle, todo⟩, out := x.out ++ [(i, cm)] }
    | none => { x with lock := none, threads := upd x.threads i ⟨.idle, todo⟩ }

/-- A schedule: which goroutine moves next. (no .go counterpart: the Go scheduler.) -/
def EncSys.run (E : Env) (a : Addr) (mutex : Bool) (x : EncSys) (sched : List Nat) : EncSys :=
  sched.foldl (EncSys.step E a mutex) x

/-- Goroutines about to send the given plaintexts. (no .go counterpart: the application.) -/
def EncSys.init (st : Store) (todo : Nat → List Bytes) : EncSys :=
  ⟨st, none, fun i => ⟨.idle, todo i⟩, []⟩

end Verif
