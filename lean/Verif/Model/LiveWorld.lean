import Verif.Model.World
import Verif.Model.ByteStore
/-
Two users (Model/World) who keep their sessions in the in-memory store of tests/stores.go: the library works on the stored objects
themselves.
-/
namespace Verif

/-- As `Node`, with the store of tests/stores.go:73-123. (session/cipher.go `Cipher` with its stores.) -/
structure LiveNode where
  st : LiveStore
  pos : Nat

/-- As `Node.say`: Encrypt (session/cipher.go:65) and serialise. -/
def LiveNode.say (E : Env) (peer : Addr) (n : LiveNode) (text : Bytes) : Res Packet × LiveNode :=
  match n.st.encrypt E peer text with
  | (.ok cm, st') => (pack E cm, { n with st := st' })
  | (.err e, st') => (.err e, { n with st := st' })
  | (.panic, st') => (.panic, { n with st := st' })

/-- As `Node.hear`: parse (protocol/signal_message.go:27, protocol/prekey_signal_message.go:22) and decrypt (session/cipher.go:132, 162). -/
def LiveNode.hear (E : Env) (peer : Addr) (n : LiveNode) : Packet → Res Bytes × LiveNode
  | .signal b =>
    match newSignalMessageFromBytes E.S b with
    | .ok m => let x := n.st.decrypt E n.pos peer m; (x.1.map (·.1), ⟨x.2.1, x.2.2⟩)
    | .err e => (.err e, n)
    | .panic => (.panic, n)
  | .preKey b =>
    match newPreKeyMessageFromBytes E.P E.S b with
    | .ok m => let x := n.st.decryptPreKey E n.pos peer m; (x.1.map (·.1), ⟨x.2.1, x.2.2⟩)
    | .err e => (.err e, n)
    | .panic => (.panic, n)

/-- As `World`, with live stores (two instances of session/cipher.go and a network). -/
structure LiveWorld where
  node : Talk.Side → LiveNode
  wire : List (Talk.Side × Packet)

/-- As `World.step`. (session/cipher.go:65, 132, 162.) -/
def LiveWorld.step (env : Talk.Side → Env) (addr : Talk.Side → Addr) (w : LiveWorld) : Talk.Event → Out × LiveWorld
  | .say s text =>
    match (w.node s).say (env s) (addr s.peer) text with
    | (.ok p, n) => (.said (.ok ()), ⟨upd w.node s n, w.wire ++ [(s, p)]⟩)
    | (.err e, n) => (.said (.err e), ⟨upd w.node s n, w.wire⟩)
    | (.panic, n) => (.said .panic, ⟨upd w.node s n, w.wire⟩)
  | .deliver i =>
    match w.wire[i]? with
    | none => (.nothing, w)
    | some (s, p) =>
      let x := (w.node s.peer).hear (env s.peer) (addr s) p
      (.heard x.1, ⟨upd w.node s.peer x.2, w.wire⟩)

/-- As `World.run` (no .go counterpart: the environment). -/
def LiveWorld.run (env : Talk.Side → Env) (addr : Talk.Side → Addr) : LiveWorld → List Talk.Event → List Out
  | _, [] => []
  | w, e :: es => (w.step env addr e).1 :: (w.step env addr e).2.run env addr es

/-- As `Store.call`, with the in-memory store (session/cipher.go:65, 132, 162 and session/session.go:177). -/
def LiveStore.call (E : Env) (st : LiveStore) (pos : Nat) : Call → Answer × LiveStore × Nat
  | .encrypt a pt => let x := st.encrypt E a pt; (.encrypted x.1, x.2, pos)
  | .decrypt a m => let x := st.decrypt E pos a m; (.decrypted x.1, x.2)
  | .decryptPreKey a m => let x := st.decryptPreKey E pos a m; (.decrypted x.1, x.2)
  | .processBundle a b => let x := st.processBundle E pos a b; (.processed x.1, x.2)

/-- As `Store.run`, with the in-memory store (no .go counterpart: this is the application). -/
def LiveStore.run (E : Env) (app : App) : Nat → LiveStore → Nat → List Answer → List Answer
  | 0, _, _, h => h
  | n + 1, st, pos, h =>
    match app h with
    | none => h
    | some c => let x := st.call E pos c; x.2.1.run E app n x.2.2 (h ++ [x.1])

end Verif
