import Verif.Model.Groups
import Verif.Model.JsonTypes
/-
Other sender-key stores an application may plug in (groups/state/store/sender_key.go:8-11 is an interface): one that holds nothing but bytes, and one that hands out the stored
object itself (tests/stores.go:163-179); group API calls as data; crashes and interleavings of group calls.
-/
namespace Verif

/-- A call of the group API, with the randomness it reads. groups/cipher.go:37, 73, groups/session_builder.go:37, 49. -/
inductive GOp where
  | encrypt (n : SenderKeyName) (pt : Bytes) (rand : Arr 64)
  | decrypt (n : SenderKeyName) (m : SenderKeyMsg)
  | process (n : SenderKeyName) (m : SKDMsg)
  | create (n : SenderKeyName) (d : GroupDraws)

/-- What it returned (groups/cipher.go:37, 73, groups/session_builder.go:37, 49). -/
inductive GAnswer where
  | encrypted (r : Res SenderKeyMsg)
  | decrypted (r : Res Bytes)
  | processed (r : Res Unit)
  | created (r : Res SKDMsg)
deriving DecidableEq

/-- Dispatch to groups/cipher.go:37, 73 and groups/session_builder.go:37, 49, with the serialising store of Model/Groups. -/
def GStore.call (C : Crypto) (S : Ser SKStruct) (st : GStore) : GOp → GAnswer × GStore
  | .encrypt n pt rand => let x := st.encrypt C S rand n pt; (.encrypted x.1, x.2)
  | .decrypt n m => let x := st.decrypt C S n m; (.decrypted x.1, x.2)
  | .process n m => let x := st.process n m; (.processed x.1, x.2)
  | .create n d => let x := st.create C d n; (.created x.1, x.2)

/-! ### Bytes -/

/-- A store that keeps what `Serialize()` (groups/state/record/sender_key.go:131) returns and loads it with `NewSenderKeyFromBytes` (groups/state/record/sender_key.go:18);
JSON serializer. -/
structure GByteStore where
  recs : SenderKeyName → Option Bytes

/-- `LoadSenderKey` (groups/state/store/sender_key.go:10); the interface has no error result: bytes that do not parse are a panic. -/
def GByteStore.load (st : GByteStore) (n : SenderKeyName) : Res (Option GRec) :=
  match st.recs n with
  | none => .ok none
  | some b => match GRec.ofBytes b with
    | .ok r => .ok (some r)
    | _ => .panic

/-- `StoreSenderKey` (groups/state/store/sender_key.go:9). -/
def GByteStore.save (st : GByteStore) (n : SenderKeyName) (r : GRec) : GByteStore :=
  ⟨fun x => if x = n then some r.serialize else st.recs x⟩

/-- groups/cipher.go:37, 73 and groups/session_builder.go:37, 49 with a store of bytes. -/
def GByteStore.call (C : Crypto) (S : Ser SKStruct) (st : GByteStore) : GOp → GAnswer × GByteStore
  | .encrypt n pt rand =>
    match st.load n with
    | .err e => (.encrypted (.err e), st)
    | .panic => (.encrypted .panic, st)
    | .ok r => match groupEncrypt C S rand r pt with
      | (res, some r', true) => (.encrypted res, st.save n r')
      | (res, _, _) => (.encrypted res, st)
  | .decrypt n m =>
    match st.load n with
    | .err e => (.decrypted (.err e), st)
    | .panic => (.decrypted .panic, st)
    | .ok r => match groupDecrypt C S r m with
      | (res, some r', true) => (.decrypted res, st.save n r')
      | (res, _, _) => (.decrypted res, st)
  | .process n m =>
    match st.load n with
    | .err e => (.processed (.err e), st)
    | .panic => (.processed .panic, st)
    | .ok r => (.processed (.ok ()), st.save n (groupProcess r m))
  | .create n d =>
    match st.load n with
    | .err e => (.created (.err e), st)
    | .panic => (.created .panic, st)
    | .ok r => match groupCreate C d r with
      | (res, some r') => (.created res, st.save n r')
      | (res, none) => (.created res, st)

/-! ### Live objects -/

/-- The store of tests/stores.go:169-179: it hands out the stored object, so every change to it is a change of what is stored.  (That store compares names by pointer; here an
application is assumed to use one name object per name.) -/
structure GLiveStore where
  recs : SenderKeyName → Option GRec

/-- The record of one name replaced, or its object changed (tests/stores.go:173). -/
def GLiveStore.set (st : GLiveStore) (n : SenderKeyName) (r : Option GRec) : GLiveStore :=
  ⟨fun x => if x = n then r else st.recs x⟩

/-- groups/cipher.go:37, 73 and groups/session_builder.go:37, 49 with the store of tests/stores.go:169: the record as the call left it in memory is what is stored, whether or not
the call got as far as `StoreSenderKey`. -/
def GLiveStore.call (C : Crypto) (S : Ser SKStruct) (st : GLiveStore) : GOp → GAnswer × GLiveStore
  | .encrypt n pt rand => let x := groupEncrypt C S rand (st.recs n) pt; (.encrypted x.1, st.set n x.2.1)
  | .decrypt n m => let x := groupDecrypt C S (st.recs n) m; (.decrypted x.1, st.set n x.2.1)
  | .process n m => (.processed (.ok ()), st.set n (some (groupProcess (st.recs n) m)))
  | .create n d =>
    match groupCreate C d (st.recs n) with
    | (res, some r') => (.created res, st.set n (some r'))
    | (res, none) => (.created res, st)

/-! ### Applications -/

/-- An application: what it calls next, given all answers so far (`none`: it stops). (no .go counterpart: the program using groups/.) -/
abbrev GApp := List GAnswer → Option GOp

/-- The answers of the first `k` calls an application makes, with any kind of store. (no .go counterpart: the program using groups/.) -/
def gAppRun {σ : Type} (call : σ → GOp → GAnswer × σ) (app : GApp) : Nat → σ → List GAnswer → List GAnswer
  | 0, _, h => h
  | k + 1, st, h =>
    match app h with
    | none => h
    | some c => let x := call st c; gAppRun call app k x.2 (h ++ [x.1])

/-! ### Crashes -/

/-- `Encrypt` (groups/cipher.go:37-69) cut short: the process dies before `StoreSenderKey` (line 66, `stored = false`) or after it, in both cases before the message is returned
to the caller.  What was computed, and what the store holds at restart. -/
def GStore.encryptCrash (C : Crypto) (S : Ser SKStruct) (rand : Arr 64) (st : GStore) (n : SenderKeyName) (pt : Bytes) (stored : Bool) : Res SenderKeyMsg × GStore :=
  let x := st.encrypt C S rand n pt
  (x.1, if stored then x.2 else st)

/-- `Decrypt` (groups/cipher.go:73-107) cut short, likewise (line 104). -/
def GStore.decryptCrash (C : Crypto) (S : Ser SKStruct) (st : GStore) (n : SenderKeyName) (m : SenderKeyMsg) (stored : Bool) : GStore :=
  if stored then (st.decrypt C S n m).2 else st

/-! ### Interleavings -/

/-- Where a goroutine is inside group `Encrypt` (groups/cipher.go:37-69): it has loaded the record (line 39) and will store the changed one (line 66) and return. -/
inductive GEncPc where
  | idle
  | loaded (m : SenderKeyMsg) (r : GRec)

/-- The shared store, the lock of the application (used only when `mutex` is true below), the goroutines with what they still have to send, and the messages returned so far.
(goroutines calling groups/cipher.go:37.) -/
structure GEncSys where
  store : GStore
  lock : Option Nat
  pc : Nat → GEncPc
  todo : Nat → List (Bytes × Arr 64)
  out : List (Nat × SenderKeyMsg)

/-- One step of goroutine `i`. groups/cipher.go:37-69 takes no lock and touches the shared store twice: `LoadSenderKey` (line 39; everything up to `StoreSenderKey` is local, since
a serialising store hands out a new object) and `StoreSenderKey` (line 66). -/
def GEncSys.step (C : Crypto) (S : Ser SKStruct) (n : SenderKeyName) (mutex : Bool) (x : GEncSys) (i : Nat) : GEncSys :=
  if mutex && (x.lock.isSome && x.lock != some i) then x else
  match x.pc i with
  | .idle =>
    match x.todo i with
    | [] => x
    | (pt, rand) :: todo =>
      match x.store.load n with
      | .ok r =>
        match groupEncrypt C S rand r pt with
        | (.ok m, some r', true) => { x with lock := some i, pc := fun j => if j = i then .loaded m r' else x.pc j, todo := fun j => if j = i then todo else x.todo j }
        | _ => { x with todo := fun j => if j = i then todo else x.todo j }
      | _ => { x with todo := fun j => if j = i then todo else x.todo j }
  | .loaded m r => { x with store := x.store.save n r, lock := none, pc := fun j => if j = i then .idle else x.pc j, out := x.out ++ [(i, m)] }

/-- A schedule: which goroutine moves next. (no .go counterpart: the Go scheduler.) -/
def GEncSys.run (C : Crypto) (S : Ser SKStruct) (n : SenderKeyName) (mutex : Bool) (x : GEncSys) (sched : List Nat) : GEncSys :=
  sched.foldl (GEncSys.step C S n mutex) x

/-- Goroutines about to send. (no .go counterpart: the application.) -/
def GEncSys.init (st : GStore) (todo : Nat → List (Bytes × Arr 64)) : GEncSys := ⟨st, none, fun _ => .idle, todo, []⟩

end Verif
