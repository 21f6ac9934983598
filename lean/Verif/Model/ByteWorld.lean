import Verif.Model.ByteStore
import Verif.Model.World
/-
Two users (Model/World) whose stores hold nothing but bytes.
-/
namespace Verif

/-- As `Node`, with a byte store. (session/cipher.go `Cipher` with its stores.) -/
structure ByteNode where
  st : ByteStore
  pos : Nat

/-- As `Node.say`: Encrypt (session/cipher.go:65) and serialise. -/
def ByteNode.say (E : Env) (peer : Addr) (n : ByteNode) (text : Bytes) : Res Packet × ByteNode :=
  match n.st.encrypt E peer text with
  | (.ok cm, st') => (pack E cm, { n with st := st' })
  | (.err e, st') => (.err e, { n with st := st' })
  | (.panic, st') => (.panic, { n with st := st' })

/-- As `Node.hear`: parse (protocol/signal_message.go:27, protocol/prekey_signal_message.go:22) and decrypt (session/cipher.go:132, 162). -/
def ByteNode.hear (E : Env) (peer : Addr) (n : ByteNode) : Packet → Res Bytes × ByteNode
  | .signal b =>
    match newSignalMessageFromBytes E.S b with
    | .ok m => let x := n.st.decrypt E n.pos peer m; (x.1.map (·.1), ⟨x.2.1, x.2.2⟩)
    | .err e => (.err e, n)
    | .panic => (.panic, n)
  | .preKey b =>
    match newPreKeyMessageFromBytes E.P E.S b with
    | .ok m => let x := n.st.decryptPreKey E n.pos peer m; (x.1.map (·.1), ⟨x.2.1, x.2.2⟩)
    | .err e => (.err e, n)
    | .panic => (.panic, n)

/-- As `World`, with byte stores (two instances of session/cipher.go and a network). -/
structure ByteWorld where
  node : Talk.Side → ByteNode
  wire : List (Talk.Side × Packet)

/-- As `World.step`. (session/cipher.go:65, 132, 162.) -/
def ByteWorld.step (env : Talk.Side → Env) (addr : Talk.Side → Addr) (w : ByteWorld) : Talk.Event → Out × ByteWorld
  | .say s text =>
    match (w.node s).say (env s) (addr s.peer) text with
    | (.ok p, n) => (.said (.ok ()), ⟨upd w.node s n, w.wire ++ [(s, p)]⟩)
    | (.err e, n) => (.said (.err e), ⟨upd w.node s n, w.wire⟩)
    | (.panic, n) => (.said .panic, ⟨upd w.node s n, w.wire⟩)
  | .deliver i =>
    match w.wire[i]? with
    | none => (.nothing, w)
    | some (s, p) =>
      let x := (w.node s.peer).hear (env s.peer) (addr s) p
      (.heard x.1, ⟨upd w.node s.peer x.2, w.wire⟩)

/-- As `World.run` (no .go counterpart: the environment). -/
def ByteWorld.run (env : Talk.Side → Env) (addr : Talk.Side → Addr) : ByteWorld → List Talk.Event → List Out
  | _, [] => []
  | w, e :: es => (w.step env addr e).1 :: (w.step env addr e).2.run env addr es

end Verif
