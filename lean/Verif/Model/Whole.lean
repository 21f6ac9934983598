import Verif.Model.Deeds
/-
The two users of Model/World in everything at once: the network makes up packets (Model/Hostile), both users do other things with the same stores (Model/Crowd), and both may die during
any call (Model/CrashWorld).
-/
namespace Verif

/-- An event of the conversation, a made-up packet arriving at user `s` under the peer's address, or something user `s` does besides the conversation.  `some k`: the user who acts dies
after `k` store operations of the call. (no .go counterpart: the environment.) -/
inductive WEvent where
  | talk (e : Talk.Event) (dies : Option Nat)
  | inject (s : Talk.Side) (p : Packet) (dies : Option Nat)
  | other (s : Talk.Side) (d : Deed)

/-- What is observed: as in Model/CrashWorld for the conversation; of a call on a made-up packet, the store operations that were done. session/cipher.go:65, 132, 162. -/
inductive WOut where
  | talk (o : XOut)
  | injected (ops : List Effect)
  | other

/-- One event. session/cipher.go:65, 132, 162; session/session.go:177. -/
def World.wstep (env : Talk.Side → Env) (addr : Talk.Side → Addr) (w : World) : WEvent → WOut × World
  | .talk e none => let x := w.xstep env addr (.full e); (.talk x.1, x.2)
  | .talk e (some k) => let x := w.xstep env addr (.crash e k); (.talk x.1, x.2)
  | .inject s p dies =>
    let n := w.node s
    let ops := n.ops (env s) (addr s.peer) p
    match dies with
    | none => (.injected ops, ⟨upd w.node s (n.hear (env s) (addr s.peer) p).2, w.wire⟩)
    | some k => (.injected (ops.take k), ⟨upd w.node s (n.cut ops (n.hear (env s) (addr s.peer) p).2.pos k), w.wire⟩)
  | .other s d => (.other, ⟨upd w.node s ((w.node s).deed (env s) d), w.wire⟩)

/-- What a list of events leads to (no .go counterpart: the environment). -/
def World.wrun (env : Talk.Side → Env) (addr : Talk.Side → Addr) : World → List WEvent → List WOut
  | _, [] => []
  | w, e :: es => (w.wstep env addr e).1 :: (w.wstep env addr e).2.wrun env addr es

/-- The events of the conversation, with what was observed of those that were cut off (no .go counterpart: the environment). -/
def conversation : List WEvent → List WOut → List (Talk.Event × Option Bool)
  | .talk e none :: es, _ :: os => (e, none) :: conversation es os
  | .talk e (some _) :: es, .talk (.crashed b) :: os => (e, some b) :: conversation es os
  | .inject .. :: es, _ :: os => conversation es os
  | .other .. :: es, _ :: os => conversation es os
  | _, _ => []

/-- What was observed of the completed events of the conversation (no .go counterpart: the environment). -/
def talkOuts : List WOut → List Out
  | [] => []
  | .talk (.full o) :: os => o :: talkOuts os
  | .talk (.crashed _) :: os => talkOuts os
  | .injected _ :: os => talkOuts os
  | .other :: os => talkOuts os

end Verif
