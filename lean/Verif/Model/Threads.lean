import Verif.Model.ByteStore
/-
Goroutines that share one set of serialising stores and call the session API.  session/cipher.go and session/session.go take no locks; a call accesses the shared stores several times,
and between two accesses other goroutines may run.  A serialising store hands out a new record object on each load, so everything between two accesses is local to the goroutine.
The application guards its calls with locks: `lockOf a` is the lock it holds during a call for address `a`.
-/
namespace Verif

/-- A call as the sequence of its accesses to the shared stores (interfaces in state/store/*.go), the rest being local computation. `α`: what the call returns. -/
inductive Prog (α : Type) where
  | done (x : α)
  /-- `ContainsSession` -/
  | contains (a : Addr) (k : Bool → Prog α)
  /-- `LoadSession` -/
  | load (a : Addr) (k : Res Rec → Prog α)
  /-- `IsTrustedIdentity` -/
  | trusted (a : Addr) (key : Key32) (k : Bool → Prog α)
  /-- `LoadSignedPreKey` -/
  | signed (id : UInt32) (k : Option IdKeyPair → Prog α)
  /-- `LoadPreKey` -/
  | preKey (id : UInt32) (k : Option IdKeyPair → Prog α)
  /-- `SaveIdentity`, `StoreSession` or `RemovePreKey`; `d` is the result when it panics -/
  | eff (e : Effect) (d : α) (k : Prog α)

/-- One access; a finished call stays as it is. state/store/*.go. -/
def Prog.step {α : Type} (E : Env) (st : Store) : Prog α → Prog α × Store
  | .done x => (.done x, st)
  | .contains a k => (k (st.sessions a).isSome, st)
  | .load a k => (k (st.load a), st)
  | .trusted a key k => (k (E.trusted st.identities a key), st)
  | .signed id k => (k (st.signedPreKeys id), st)
  | .preKey id k => (k (st.preKeys id), st)
  | .eff e d k =>
    match st.apply e with
    | some st' => (k, st')
    | none => (.done d, st)

/-- All remaining accesses without interruption. state/store/*.go. -/
def Prog.run {α : Type} (E : Env) : Prog α → Store → α × Store
  | .done x, st => (x, st)
  | .contains a k, st => (k (st.sessions a).isSome).run E st
  | .load a k, st => (k (st.load a)).run E st
  | .trusted a key k, st => (k (E.trusted st.identities a key)).run E st
  | .signed id k, st => (k (st.signedPreKeys id)).run E st
  | .preKey id k, st => (k (st.preKeys id)).run E st
  | .eff e d k, st =>
    match st.apply e with
    | some st' => k.run E st'
    | none => (d, st)

/-- The last accesses of a call. session/cipher.go:125-126, 156-159, 178-182; session/session.go:271-272. -/
def Prog.effs {α : Type} (d x : α) : List Effect → Prog α
  | [] => .done x
  | e :: es => .eff e d (Prog.effs d x es)

/-- session/cipher.go:65-129 `Encrypt`. The trust check of line 122 has no effect. -/
def encryptProg (E : Env) (pos : Nat) (a : Addr) (pt : Bytes) : Prog (Answer × Nat) :=
  .load a fun
    | .ok r => let x := encryptRec E a r pt; .effs (.encrypted .panic, pos) (.encrypted x.1, pos) x.2.2
    | .err e => .done (.encrypted (.err e), pos)
    | .panic => .done (.encrypted .panic, pos)

/-- session/cipher.go:140-160 `DecryptAndGetKey`. -/
def decryptProg (E : Env) (pos : Nat) (a : Addr) (m : SignalMsg) : Prog (Answer × Nat) :=
  .contains a fun
    | false => .done (.decrypted (.err .noSession), pos)
    | true => .load a fun
      | .ok r => let x := decryptRec E pos a r m; .effs (.decrypted .panic, x.2.2.1) (.decrypted x.1, x.2.2.1) x.2.2.2
      | .err e => .done (.decrypted (.err e), pos)
      | .panic => .done (.decrypted .panic, pos)

/-- session/cipher.go:172-184: the end of `DecryptMessageReturnKey`, once `processV3` returned. -/
def decryptPreKeyEnd (E : Env) (pos : Nat) (a : Addr) (m : PreKeyMsg) : Res (Option OptU32) × Rec → Prog (Answer × Nat)
  | (.err e, _) => .done (.decrypted (.err e), pos)
  | (.panic, _) => .done (.decrypted .panic, pos)
  | (.ok id, r1) => .eff (.saveIdentity a (some m.identityKey)) (.decrypted .panic, pos)
    (match decryptWithRecord E pos r1 m.message with
    | (.err e, _, pos') => .done (.decrypted (.err e), pos')
    | (.panic, _, pos') => .done (.decrypted .panic, pos')
    | (.ok x, r2, pos') => .eff (.storeSession a r2) (.decrypted .panic, pos')
      (match id with
      | none => .done (.decrypted .panic, pos')
      | some o =>
        if o.isEmpty then .done (.decrypted (.ok x), pos')
        else .eff (.removePreKey o.value) (.decrypted .panic, pos') (.done (.decrypted (.ok x), pos'))))

/-- session/cipher.go:167-184 `DecryptMessageReturnKey` with session/session.go:83-173 `Process`. -/
def decryptPreKeyProg (E : Env) (pos : Nat) (a : Addr) (m : PreKeyMsg) : Prog (Answer × Nat) :=
  .load a fun
    | .ok r => .trusted a m.identityKey fun
      | false => .done (.decrypted (.err .untrustedIdentity), pos)
      | true =>
        if r.hasSessionState m.struct.version (serPub m.baseKey) then
          decryptPreKeyEnd E pos a m (processV3 E (fun _ => none) (fun _ => none) r m)
        else .signed m.struct.signedPreKeyId fun
          | none => .done (.decrypted .panic, pos)
          | some spk =>
            match m.struct.preKeyId with
            | none => decryptPreKeyEnd E pos a m (processV3 E (fun _ => none) (fun _ => some spk) r m)
            | some o => .preKey o.value fun kp => decryptPreKeyEnd E pos a m (processV3 E (fun _ => kp) (fun _ => some spk) r m)
    | .err e => .done (.decrypted (.err e), pos)
    | .panic => .done (.decrypted .panic, pos)

/-- session/session.go:177-275 `ProcessBundle`. -/
def processBundleProg (E : Env) (pos : Nat) (a : Addr) (b : Bundle) : Prog (Answer × Nat) :=
  .trusted a b.identityKey fun
    | false => .done (.processed (.err .untrustedIdentity), pos)
    | true =>
      match b.signedPreKeyPublic with
      | none => .done (.processed (.err .noSignedPreKey), pos)
      | some spk =>
        if E.C.verify b.identityKey (serPub spk) b.signature = false then .done (.processed (.err .invalidSignature), pos)
        else .load a fun
          | .ok r => let x := buildFromBundle E pos a r b spk; .effs (.processed .panic, x.2.2.1) (.processed x.1, x.2.2.1) x.2.2.2
          | .err e => .done (.processed (.err e), pos)
          | .panic => .done (.processed .panic, pos)

/-- session/cipher.go:65, 140, 167; session/session.go:177. -/
def Call.prog (E : Env) (pos : Nat) : Call → Prog (Answer × Nat)
  | .encrypt a pt => encryptProg E pos a pt
  | .decrypt a m => decryptProg E pos a m
  | .decryptPreKey a m => decryptPreKeyProg E pos a m
  | .processBundle a b => processBundleProg E pos a b

/-- A goroutine: the answers its calls got so far, its position in the random source (each goroutine has its own source: which goroutine gets which random numbers is up to the scheduler),
and the call it is in, if any. (no .go counterpart: the application.) -/
structure Thread where
  hist : List Answer
  pos : Nat
  cur : Option (Call × Prog (Answer × Nat))

/-- The shared stores, the holders of the application's locks, and the goroutines. (no .go counterpart: the application.) -/
structure Sys (L : Type) where
  store : Store
  lock : L → Option Nat
  threads : Nat → Thread

/-- Goroutine `i` moves: it takes the lock for its next call (or does nothing while another goroutine has it), performs the next access of its call, or returns from it and releases the
lock.  `app i` is its program: what it calls next, given all answers it got. session/cipher.go:65, 140, 167; session/session.go:177. -/
def Sys.step {L : Type} [DecidableEq L] (lockOf : Addr → L) (E : Nat → Env) (app : Nat → App) (x : Sys L) (i : Nat) : Sys L :=
  match (x.threads i).cur with
  | none =>
    match app i (x.threads i).hist with
    | none => x
    | some c =>
      if x.lock (lockOf c.addr) = none then
        { x with lock := upd x.lock (lockOf c.addr) (some i),
                 threads := upd x.threads i { x.threads i with cur := some (c, c.prog (E i) (x.threads i).pos) } }
      else x
  | some (c, .done (ans, pos')) =>
    { x with lock := upd x.lock (lockOf c.addr) none,
             threads := upd x.threads i ⟨(x.threads i).hist ++ [ans], pos', none⟩ }
  | some (c, p) =>
    { x with store := (p.step (E i) x.store).2,
             threads := upd x.threads i { x.threads i with cur := some (c, (p.step (E i) x.store).1) } }

/-- A schedule: which goroutine moves next. (no .go counterpart: the Go scheduler.) -/
def Sys.run {L : Type} [DecidableEq L] (lockOf : Addr → L) (E : Nat → Env) (app : Nat → App) (x : Sys L) (sched : List Nat) : Sys L :=
  sched.foldl (Sys.step lockOf E app) x

/-- Goroutines that have not called anything yet. (no .go counterpart: the application.) -/
def Sys.init {L : Type} (st : Store) (pos : Nat → Nat) : Sys L := ⟨st, fun _ => none, fun i => ⟨[], pos i, none⟩⟩

/-- The same goroutines calling one after the other: the stores, and each goroutine's answers and random position. (no .go counterpart: the application.) -/
structure Turns where
  store : Store
  hist : Nat → List Answer
  pos : Nat → Nat

/-- Goroutine `i` makes its next call, uninterrupted. session/cipher.go:65, 140, 167; session/session.go:177. -/
def Turns.step (E : Nat → Env) (app : Nat → App) (y : Turns) (i : Nat) : Turns :=
  match app i (y.hist i) with
  | none => y
  | some c => let z := y.store.call (E i) (y.pos i) c; ⟨z.2.1, upd y.hist i (y.hist i ++ [z.1]), upd y.pos i z.2.2⟩

/-- The goroutines call in the given order. (no .go counterpart: the application.) -/
def Turns.run (E : Nat → Env) (app : Nat → App) (y : Turns) (order : List Nat) : Turns := order.foldl (Turns.step E app) y

end Verif
