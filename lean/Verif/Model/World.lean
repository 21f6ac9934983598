import Verif.Model.Store
import Verif.Spec.Talk
/-
Two users of the library connected by a network that carries serialised messages.
-/
namespace Verif

/-- A serialised message, as handed to the network, with its type. protocol/ciphertext_message.go. -/
inductive Packet where
  | signal (b : Bytes)
  | preKey (b : Bytes)

/-- protocol/signal_message.go:195-197 and protocol/prekey_signal_message.go:149-151 `Serialize` of what Encrypt returned. -/
def pack (E : Env) : CipherMsg → Res Packet
  | .signal m => (E.S.ser m.struct).map .signal
  | .preKey m => (E.P.ser m.struct).map .preKey

/-- One user's persistent data and position in the random source. session/cipher.go `Cipher` with its stores. -/
structure Node where
  st : Store
  pos : Nat

/-- Encrypt (session/cipher.go:65) and serialise. -/
def Node.say (E : Env) (peer : Addr) (n : Node) (text : Bytes) : Res Packet × Node :=
  match n.st.encrypt E peer text with
  | (.ok cm, st') => (pack E cm, { n with st := st' })
  | (.err e, st') => (.err e, { n with st := st' })
  | (.panic, st') => (.panic, { n with st := st' })

/-- Parse (protocol/signal_message.go:27, protocol/prekey_signal_message.go:22) and decrypt
(session/cipher.go:132 `Decrypt`, session/cipher.go:162 `DecryptMessage`). -/
def Node.hear (E : Env) (peer : Addr) (n : Node) : Packet → Res Bytes × Node
  | .signal b =>
    match newSignalMessageFromBytes E.S b with
    | .ok m => let x := n.st.decrypt E n.pos peer m; (x.1.map (·.1), ⟨x.2.1, x.2.2⟩)
    | .err e => (.err e, n)
    | .panic => (.panic, n)
  | .preKey b =>
    match newPreKeyMessageFromBytes E.P E.S b with
    | .ok m => let x := n.st.decryptPreKey E n.pos peer m; (x.1.map (·.1), ⟨x.2.1, x.2.2⟩)
    | .err e => (.err e, n)
    | .panic => (.panic, n)

/-- Both users and everything sent so far. (no .go counterpart: the environment.) -/
structure World where
  node : Talk.Side → Node
  wire : List (Talk.Side × Packet)

/-- What a call returned. The results of session/cipher.go:65, 132, 162. -/
inductive Out where
  | said (r : Res Unit)
  | heard (r : Res Bytes)
  | nothing
deriving DecidableEq

/-- One event.  `env s` is what user `s` is configured with, `addr s` the address under which the peer knows `s`. session/cipher.go:65, 132, 162. -/
def World.step (env : Talk.Side → Env) (addr : Talk.Side → Addr) (w : World) : Talk.Event → Out × World
  | .say s text =>
    match (w.node s).say (env s) (addr s.peer) text with
    | (.ok p, n) => (.said (.ok ()), ⟨upd w.node s n, w.wire ++ [(s, p)]⟩)
    | (.err e, n) => (.said (.err e), ⟨upd w.node s n, w.wire⟩)
    | (.panic, n) => (.said .panic, ⟨upd w.node s n, w.wire⟩)
  | .deliver i =>
    match w.wire[i]? with
    | none => (.nothing, w)
    | some (s, p) =>
      let x := (w.node s.peer).hear (env s.peer) (addr s) p
      (.heard x.1, ⟨upd w.node s.peer x.2, w.wire⟩)

/-- The outcomes of a list of events (no .go counterpart: the environment). -/
def World.run (env : Talk.Side → Env) (addr : Talk.Side → Addr) : World → List Talk.Event → List Out
  | _, [] => []
  | w, e :: es => (w.step env addr e).1 :: (w.step env addr e).2.run env addr es

end Verif
