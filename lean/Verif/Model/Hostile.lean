import Verif.Model.World
/-
The two users of Model/World with a network that also makes up packets.
-/
namespace Verif

/-- The store operations a user's call on an incoming packet performs, in order (none when it does not parse). session/cipher.go:132-184. -/
def Node.ops (E : Env) (peer : Addr) (n : Node) : Packet → List Effect
  | .signal b =>
    match newSignalMessageFromBytes E.S b with
    | .ok m => (n.st.decryptTrace E n.pos peer m).2.2
    | _ => []
  | .preKey b =>
    match newPreKeyMessageFromBytes E.P E.S b with
    | .ok m => (n.st.decryptPreKeyTrace E n.pos peer m).2.2
    | _ => []

/-- An event: one of Model/World, or any packet whatever arriving at user `s` under the peer's address. (no .go counterpart: the environment.) -/
inductive HEvent where
  | honest (e : Talk.Event)
  | inject (s : Talk.Side) (p : Packet)

/-- What is observed: the result of a call of an honest event, or the result and the store operations of a call on a made-up packet. session/cipher.go:65, 132, 162. -/
inductive HOut where
  | honest (o : Out)
  | injected (r : Res Bytes) (ops : List Effect)

/-- One event. session/cipher.go:65, 132, 162. -/
def World.hstep (env : Talk.Side → Env) (addr : Talk.Side → Addr) (w : World) : HEvent → HOut × World
  | .honest e => let x := w.step env addr e; (.honest x.1, x.2)
  | .inject s p =>
    let x := (w.node s).hear (env s) (addr s.peer) p
    (.injected x.1 ((w.node s).ops (env s) (addr s.peer) p), ⟨upd w.node s x.2, w.wire⟩)

/-- What a list of events leads to (no .go counterpart: the environment). -/
def World.hrun (env : Talk.Side → Env) (addr : Talk.Side → Addr) : World → List HEvent → List HOut
  | _, [] => []
  | w, e :: es => (w.hstep env addr e).1 :: (w.hstep env addr e).2.hrun env addr es

/-- The honest events of a schedule (no .go counterpart: the environment). -/
def honestEvents : List HEvent → List Talk.Event
  | [] => []
  | .honest e :: es => e :: honestEvents es
  | .inject .. :: es => honestEvents es

/-- What was observed at the honest events (no .go counterpart: the environment). -/
def honestOuts : List HOut → List Out
  | [] => []
  | .honest o :: os => o :: honestOuts os
  | .injected .. :: os => honestOuts os

end Verif
