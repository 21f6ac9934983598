import Verif.Model.GroupStores
/-
Goroutines that share one serialising sender-key store and call the group API.  groups/cipher.go and groups/session_builder.go take no locks (groups/cipher.go:30-34, groups/session_builder.go:30-33); a call
touches the store at most twice: `LoadSenderKey` and, at its end, `StoreSenderKey`.  A serialising store hands out a new object, so everything in between is local to the goroutine.
The application guards its calls with locks: `lockOf n` is the lock it holds during a call for the sender key name `n`.
-/
namespace Verif

/-- The sender key name a call is about. groups/cipher.go:37, 73; groups/session_builder.go:37, 49. -/
def GOp.name : GOp → SenderKeyName
  | .encrypt n .. => n
  | .decrypt n .. => n
  | .process n .. => n
  | .create n .. => n

/-- What a call does with the record it loaded: its answer and the record it stores at the end, if any. groups/cipher.go:37-69, 73-107; groups/session_builder.go:37-46, 49-84. -/
def GOp.work (C : Crypto) (S : Ser SKStruct) (r : Option GRec) : GOp → GAnswer × Option GRec
  | .encrypt _ pt rand =>
    match groupEncrypt C S rand r pt with
    | (res, some r', true) => (.encrypted res, some r')
    | (res, _, _) => (.encrypted res, none)
  | .decrypt _ m =>
    match groupDecrypt C S r m with
    | (res, some r', true) => (.decrypted res, some r')
    | (res, _, _) => (.decrypted res, none)
  | .process _ m => (.processed (.ok ()), some (groupProcess r m))
  | .create _ d => ((.created (groupCreate C d r).1), (groupCreate C d r).2)

/-- The answer when the record cannot be loaded. groups/state/store/sender_key.go:10. -/
def GOp.failed : GOp → Res Unit → GAnswer
  | .encrypt .., r => .encrypted (r.bind fun _ => .panic)
  | .decrypt .., r => .decrypted (r.bind fun _ => .panic)
  | .process .., r => .processed r
  | .create .., r => .created (r.bind fun _ => .panic)

/-- What the call will answer and store once it has loaded. groups/cipher.go:39, 74; groups/session_builder.go:40, 51. -/
def GOp.loaded (C : Crypto) (S : Ser SKStruct) (st : GStore) (c : GOp) : GAnswer × Option GRec :=
  match st.load c.name with
  | .ok r => c.work C S r
  | .err e => (c.failed (.err e), none)
  | .panic => (c.failed .panic, none)

/-- `StoreSenderKey` (groups/state/store/sender_key.go:9), if the call gets there. -/
def GStore.put (st : GStore) (n : SenderKeyName) : Option GRec → GStore
  | some r => st.save n r
  | none => st

/-- A goroutine: the answers it got so far and, when it is inside a call, the call with what it will answer and store. (no .go counterpart: the application.) -/
structure GThread where
  hist : List GAnswer
  cur : Option (GOp × GAnswer × Option GRec)

/-- The shared store, the holders of the application's locks, and the goroutines. (no .go counterpart: the application.) -/
structure GSys (L : Type) where
  store : GStore
  lock : L → Option Nat
  threads : Nat → GThread

/-- Goroutine `i` moves: outside a call it takes the lock for its next one (or does nothing while another goroutine has it) and loads; inside a call it stores, returns and releases
the lock.  `app i` is its program. groups/cipher.go:39, 66, 74, 104; groups/session_builder.go:40, 45, 51, 65. -/
def GSys.step {L : Type} [DecidableEq L] (C : Crypto) (S : Ser SKStruct) (lockOf : SenderKeyName → L) (app : Nat → GApp) (x : GSys L) (i : Nat) : GSys L :=
  match (x.threads i).cur with
  | none =>
    match app i (x.threads i).hist with
    | none => x
    | some c =>
      if x.lock (lockOf c.name) = none then
        { x with lock := fun l => if l = lockOf c.name then some i else x.lock l,
                 threads := fun j => if j = i then ⟨(x.threads i).hist, some (c, c.loaded C S x.store)⟩ else x.threads j }
      else x
  | some (c, ans, r) =>
    { store := x.store.put c.name r,
      lock := fun l => if l = lockOf c.name then none else x.lock l,
      threads := fun j => if j = i then ⟨(x.threads i).hist ++ [ans], none⟩ else x.threads j }

/-- A schedule: which goroutine moves next. (no .go counterpart: the Go scheduler.) -/
def GSys.run {L : Type} [DecidableEq L] (C : Crypto) (S : Ser SKStruct) (lockOf : SenderKeyName → L) (app : Nat → GApp) (x : GSys L) (sched : List Nat) : GSys L :=
  sched.foldl (GSys.step C S lockOf app) x

/-- Goroutines that have not called anything yet. (no .go counterpart: the application.) -/
def GSys.init {L : Type} (st : GStore) : GSys L := ⟨st, fun _ => none, fun _ => ⟨[], none⟩⟩

/-- The same goroutines calling one after the other. (no .go counterpart: the application.) -/
structure GTurns where
  store : GStore
  hist : Nat → List GAnswer

/-- Goroutine `i` makes its next call, uninterrupted. groups/cipher.go:37, 73; groups/session_builder.go:37, 49. -/
def GTurns.step (C : Crypto) (S : Ser SKStruct) (app : Nat → GApp) (y : GTurns) (i : Nat) : GTurns :=
  match app i (y.hist i) with
  | none => y
  | some c => let z := y.store.call C S c; ⟨z.2, fun j => if j = i then y.hist i ++ [z.1] else y.hist j⟩

/-- The goroutines call in the given order. (no .go counterpart: the application.) -/
def GTurns.run (C : Crypto) (S : Ser SKStruct) (app : Nat → GApp) (y : GTurns) (order : List Nat) : GTurns := order.foldl (GTurns.step C S app) y

end Verif
