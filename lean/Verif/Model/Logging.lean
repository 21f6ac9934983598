import Verif.Model.Session
import Verif.Model.JsonTypes
/-
The logger (logger/*.go) and what the session code hands to it.

Simplified: time stamps and the caller's file name are arguments of a log call here; the texts of errors are represented by the error
(`Arg.error`; the text of "old counter" also contains the two message numbers); `fmt.Sprint` of a pointer to a record or state prints
numbers and addresses, no key bytes (`Arg.object`).
-/
namespace Verif

/-- logger/logger.go:59-80: the four kinds of log call. -/
inductive Level where
  | debug
  | info
  | warning
  | error
deriving DecidableEq

/-- An argument of a log call, as printed by `toString` (logger/logger.go:29-31). -/
inductive Arg where
  | text (s : String)
  | bytes (b : Bytes)
  | error (e : Err)
  | id (o : Option OptU32)
  | object
deriving DecidableEq

/-- One call of logger.Debug, Info, Warning or Error (logger/logger.go:59-80). -/
structure LogCall where
  level : Level
  args : List Arg
deriving DecidableEq

/-! ### What the session code logs -/

/-- protocol/signal_message.go:150-192 `VerifyMac`: its log calls (lines 174, 182-184). -/
def SignalMsg.verifyMacLog (C : Crypto) (S : Ser SMStruct) (m : SignalMsg) (version : Int)
    (sender receiver : Option Key32) (macKey : Bytes) : List LogCall :=
  match (newSignalMessageFromStruct m.struct).bind fun m' => S.ser { m'.struct with mac := none, version := 0 } with
  | .ok body =>
    match getMac C version sender receiver macKey (itoa m.struct.version ++ body) with
    | .ok ours =>
      [⟨.debug, [.text "Verifying macs..."]⟩, ⟨.debug, [.text "  Our MAC: ", .bytes ours]⟩,
       ⟨.debug, [.text "  Their MAC: ", .bytes (m.struct.mac.getD [])]⟩]
    | .err e => [⟨.error, [.error e]⟩]
    | .panic => []
  | _ => []

/-- session/cipher.go:188-197 `DecryptWithKey` and 351-354 `decrypt`: their log calls. -/
def decryptWithKeyLog (C : Crypto) (mk : MsgKeys) (body : Bytes) : List LogCall :=
  [⟨.debug, [.text "Decrypting ciphertext body: ", .bytes body]⟩, ⟨.debug, [.text "Using cipherKey: ", .bytes mk.cipherKey]⟩] ++
  match decryptBody C mk body with
  | .err e => [⟨.error, [.text "Unable to get plain text from ciphertext: ", .error e]⟩]
  | _ => []

/-- session/cipher.go:236-279 `DecryptWithState`: its log calls. -/
def decryptWithStateLog (E : Env) (draw : Option Key32) (s : SState) (m : SignalMsg) : List LogCall :=
  ⟨.debug, [.text "Decrypting ciphertext with session state: ", .object]⟩ ::
  match s.senderChain with
  | none => [⟨.error, [.text "Unable to decrypt message with state: ", .text "Uninitialized session!"]⟩]
  | some _ =>
    if m.struct.version ≠ s.version then [⟨.error, [.text "Unable to decrypt message with state: ", .text "Wrong message version!"]⟩]
    else
      match getOrCreateChainKey E.C draw s m.senderRatchetKey with
      | (.err e, _, _) => [⟨.error, [.text "Unable to get or create chain key: ", .error e]⟩]
      | (.panic, _, _) => []
      | (.ok ck, s1, _) =>
        match getOrCreateMessageKeys E.C s1 m.senderRatchetKey ck m.struct.counter with
        | (.err e, _) => [⟨.error, [.text "Unable to get or create message keys: ", .error e]⟩]
        | (.panic, _) => []
        | (.ok mk, s2) =>
          m.verifyMacLog E.C E.S m.struct.version s2.remoteIdentity s2.localIdentity mk.macKey ++
          match m.verifyMac E.C E.S m.struct.version s2.remoteIdentity s2.localIdentity mk.macKey with
          | .err e => [⟨.error, [.text "Unable to verify ciphertext mac: ", .error e]⟩]
          | .panic => []
          | .ok () => decryptWithKeyLog E.C mk (m.struct.cipherText.getD [])

/-- session/cipher.go:212-226: the log calls while the archived states are tried. -/
def tryPreviousLog (E : Env) (m : SignalMsg) : List Nat → Rec → Nat → List LogCall
  | [], _, _ => []
  | a :: rest, r, pos =>
    decryptWithStateLog E (E.rng pos) (r.heap a) m ++
    match decryptWithState E (E.rng pos) (r.heap a) m with
    | (.err _, s', d) => tryPreviousLog E m rest (r.set a s') (bump pos d)
    | _ => []

/-- session/cipher.go:200-233 `DecryptWithRecord`: its log calls. -/
def decryptWithRecordLog (E : Env) (pos : Nat) (r : Rec) (m : SignalMsg) : List LogCall :=
  ⟨.debug, [.text "Decrypting ciphertext with record: ", .object]⟩ :: decryptWithStateLog E (E.rng pos) (r.heap r.cur) m ++
  match decryptWithState E (E.rng pos) (r.heap r.cur) m with
  | (.err e, s', d) => ⟨.warning, [.error e]⟩ :: tryPreviousLog E m r.prev (r.set r.cur s') (bump pos d)
  | _ => []

/-- session/cipher.go:65-128 `Encrypt` and 358-361 `encrypt`: their log calls (when `encrypt` fails the body is nil). -/
def encryptLog (E : Env) (s : SState) (plaintext : Bytes) : List LogCall :=
  match s.senderChain with
  | none => []
  | some sc =>
    let mk := sc.chainKey.msgKeys E.C
    ⟨.debug, [.text "Using cipherKey: ", .bytes mk.cipherKey]⟩ ::
    match encryptBody E.C mk plaintext with
    | .ok body => [⟨.debug, [.text "Got ciphertextBody: ", .bytes body]⟩]
    | .err _ => [⟨.debug, [.text "Got ciphertextBody: ", .bytes []]⟩]
    | .panic => []

/-- session/session.go:107-173 `processV3`: its log calls. -/
def processV3Log (preKeys signedPreKeys : UInt32 → Option IdKeyPair) (r : Rec) (m : PreKeyMsg) : List LogCall :=
  ⟨.debug, [.text "Processing message with PreKeyID: ", .id m.struct.preKeyId]⟩ ::
  if r.hasSessionState m.struct.version (serPub m.baseKey) then
    [⟨.warning, [.text "We've already setup a session for this V3 message, letting bundled message fall through..."]⟩]
  else
    match signedPreKeys m.struct.signedPreKeyId, m.struct.preKeyId with
    | some _, some id => if preKeys id.value = none then [⟨.error, [.error .nilOneTimePreKey]⟩] else []
    | _, _ => []

/-- session/cipher.go:167-184 `DecryptMessageReturnKey`: its log calls. -/
def decryptPreKeyLog (E : Env) (ids : Addr → Option Key32) (preKeys signedPreKeys : UInt32 → Option IdKeyPair)
    (pos : Nat) (a : Addr) (r : Rec) (m : PreKeyMsg) : List LogCall :=
  if E.trusted ids a m.identityKey = false then []
  else
    processV3Log preKeys signedPreKeys r m ++
    match process E ids preKeys signedPreKeys a r m with
    | (.ok _, r1, _) => decryptWithRecordLog E pos r1 m.message
    | _ => []

/-- state/record/state_session.go:496-498 `Serialize` with serialize/json.go:144-152: its log calls (line 149 prints the text). -/
def SState.serializeLog (s : SState) : List LogCall :=
  match s.serialize with
  | .ok b => [⟨.debug, [.text "Serialize result: ", .bytes b]⟩]
  | _ => []

/-- serialize/proto.go:152-176 `Serialize` of a sender key distribution message: its log calls (line 174 prints the bytes). -/
def SKDMsg.serializeLog (T : Ser SKDStruct) (m : SKDMsg) : List LogCall :=
  match m.serialize T with
  | .ok b => [⟨.debug, [.text "Serialize result: ", .bytes b]⟩]
  | _ => []

/-! ### The logger -/

/-- `strings.Split(settings, ",")` (logger/default.go:84). -/
def splitComma : Bytes → List Bytes
  | [] => [[]]
  | c :: s => if c = 44 then [] :: splitComma s else
    match splitComma s with
    | [] => [[c]]
    | p :: ps => (c :: p) :: ps

/-- `strings.Contains(caller, namespace)` (logger/default.go:39). -/
def contains (sub : Bytes) : Bytes → Bool
  | [] => sub = []
  | c :: s => sub.isPrefixOf (c :: s) || contains sub s

/-- What the variable `logger.Logger` (logger/logger.go:12) holds: the default logger with its `namespaces` (nil: `none`) or a logger
given to `Setup` (named by a number).  -/
inductive Sink where
  | default (namespaces : Option (List Bytes))
  | custom (n : Nat)
deriving DecidableEq

/-- What comes out of a log call (logger/default.go:57-68, logger/logger.go:42-70): a line printed by the default logger, or a call of the installed
logger's method. -/
inductive Output where
  | printed (level : Level) (caller msg : Bytes)
  | handed (n : Nat) (level : Level) (caller msg : Bytes)
deriving DecidableEq

/-- logger/default.go:49-53 `ensureNamespaces`. -/
def ensureNamespaces (ns : Option (List Bytes)) : List Bytes := ns.getD [ascii "all"]

/-- logger/default.go:32-45 `shouldLog` on the list `ensureNamespaces` leaves. -/
def shouldLog (caller : Bytes) (ns : List Bytes) : Bool :=
  ns.foldl (fun acc n =>
    let acc := if n = ascii "all" then true else acc
    if contains n caller then true else acc) false

/-- The methods Debug, Info, Warning and Error of the logger in use; logger/default.go:16-28, 56-73 (debug and info do nothing). -/
def Sink.log (s : Sink) (level : Level) (caller msg : Bytes) : List Output × Sink :=
  match s with
  | .custom n => ([.handed n level caller msg], s)
  | .default ns =>
    match level with
    | .debug | .info => ([], s)
    | _ =>
      let ns := ensureNamespaces ns
      (if shouldLog caller ns then [.printed level caller msg] else [], .default (some ns))

/-- The method Configure of the logger in use; logger/default.go:83-85.  (What an installed logger does with the settings is its own affair.) -/
def Sink.configure (s : Sink) (settings : Bytes) : Sink :=
  match s with
  | .custom n => .custom n
  | .default _ => .default (some (splitComma settings))

/-- logger/logger.go:34-38 `ensureLogger`; `none` is the nil interface. -/
def ensureLogger (s : Option Sink) : Sink := s.getD (.default none)

/-- A call an application (or the library itself) makes; logger/logger.go:24-26, 59-88.  `setup none` is `Setup` of a nil `Loggable`. -/
inductive LogOp where
  | setup (n : Option Nat)
  | log (level : Level) (caller msg : Bytes)
  | configure (settings : Bytes)

/-- One call after another; logger/logger.go:24-26, 59-88. -/
def LogOp.run (s : Option Sink) : LogOp → List Output × Option Sink
  | .setup n => ([], n.map .custom)
  | .log l c m => let x := (ensureLogger s).log l c m; (x.1, some x.2)
  | .configure t => ([], some ((ensureLogger s).configure t))

/-- A whole history of calls, with the output of each; logger/logger.go:24-88. -/
def runLog (s : Option Sink) : List LogOp → List (List Output) × Option Sink
  | [] => ([], s)
  | o :: os => let x := o.run s; let y := runLog x.2 os; (x.1 :: y.1, y.2)

/-! ### Concurrent use: `ensureLogger` tests and sets the shared variable without a lock -/

/-- Where a goroutine stands; logger/logger.go:34-38 and 59-62: before the call; after it found the variable nil; before the method call. -/
inductive LogPc where
  | start
  | sawNil
  | ready
deriving DecidableEq

/-- Goroutines with the calls they still have to make, the shared variable, what came out, and whether a goroutine crashed (a method call on the nil
interface); logger/logger.go. -/
structure LogWorld where
  logger : Option Sink
  pc : Nat → LogPc
  todo : Nat → List LogOp
  out : List Output
  crashed : Bool

/-- One step of a goroutine; logger/logger.go:24-26 (one store), 34-38 (test, then store), 61 (load and method call). -/
def LogWorld.step (w : LogWorld) (i : Nat) : LogWorld :=
  match w.todo i with
  | [] => w
  | .setup n :: os => { w with logger := n.map .custom, todo := fun j => if j = i then os else w.todo j }
  | o :: os =>
    match w.pc i with
    | .start => { w with pc := fun j => if j = i then (if w.logger = none then .sawNil else .ready) else w.pc j }
    | .sawNil => { w with logger := some (.default none), pc := fun j => if j = i then .ready else w.pc j }
    | .ready =>
      { logger := if w.logger = none then none else (o.run w.logger).2,
        out := w.out ++ (if w.logger = none then [] else (o.run w.logger).1),
        crashed := w.crashed || w.logger = none,
        pc := fun j => if j = i then .start else w.pc j,
        todo := fun j => if j = i then os else w.todo j }

/-- A schedule: which goroutine takes the next step; logger/logger.go. -/
def LogWorld.run (w : LogWorld) : List Nat → LogWorld
  | [] => w
  | i :: is => (w.step i).run is

end Verif
