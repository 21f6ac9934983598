import Verif.Model.Hostile
import Verif.Spec.TalkCrash
/-
The two users of Model/World, who may die at any moment: a call is cut off between two of its store operations and the user continues later with what the stores hold.
-/
namespace Verif

/-- `StoreSession`. state/store/session.go:10. -/
def Effect.isStore : Effect → Bool
  | .storeSession .. => true
  | _ => false

/-- What is left of user `n` after dying once the first `k` of the call's store operations are done; random numbers the call drew are gone. state/store/*.go. -/
def Node.cut (n : Node) (ops : List Effect) (pos : Nat) (k : Nat) : Node := ⟨(n.st.applyAll (ops.take k)).1, pos⟩

/-- An event that is completed, or one during which the user who acts (the speaker, or the recipient) dies after `k` store operations. (no .go counterpart: the environment.) -/
inductive XEvent where
  | full (e : Talk.Event)
  | crash (e : Talk.Event) (k : Nat)

/-- What is observed: the result of a completed call; of a call that was cut off, only whether it had reached `StoreSession`. session/cipher.go:65, 132, 162. -/
inductive XOut where
  | full (o : Out)
  | crashed (stored : Bool)

/-- One event. session/cipher.go:65-129 (`Encrypt`: store operations at 125-126), 132-160 (`Decrypt`: 156-159), 162-184 (`DecryptMessage`: session/session.go:96, session/cipher.go:178-182). -/
def World.xstep (env : Talk.Side → Env) (addr : Talk.Side → Addr) (w : World) : XEvent → XOut × World
  | .full e => let x := w.step env addr e; (.full x.1, x.2)
  | .crash (.say s text) k =>
    let ops := ((w.node s).st.encryptTrace (env s) (addr s.peer) text).2
    (.crashed ((ops.take k).any Effect.isStore), ⟨upd w.node s ((w.node s).cut ops (w.node s).pos k), w.wire⟩)
  | .crash (.deliver i) k =>
    match w.wire[i]? with
    | none => (.crashed false, w)
    | some (s, p) =>
      let n := w.node s.peer
      let ops := n.ops (env s.peer) (addr s) p
      (.crashed ((ops.take k).any Effect.isStore), ⟨upd w.node s.peer (n.cut ops (n.hear (env s.peer) (addr s) p).2.pos k), w.wire⟩)

/-- What a list of events leads to (no .go counterpart: the environment). -/
def World.xrun (env : Talk.Side → Env) (addr : Talk.Side → Addr) : World → List XEvent → List XOut
  | _, [] => []
  | w, e :: es => (w.xstep env addr e).1 :: (w.xstep env addr e).2.xrun env addr es

/-- The events with what was observed of those that were cut off (no .go counterpart: the environment). -/
def withCrashes : List XEvent → List XOut → List (Talk.Event × Option Bool)
  | .full e :: es, _ :: os => (e, none) :: withCrashes es os
  | .crash e _ :: es, .crashed b :: os => (e, some b) :: withCrashes es os
  | _, _ => []

/-- What was observed of the completed events (no .go counterpart: the environment). -/
def fullOuts : List XOut → List Out
  | [] => []
  | .full o :: os => o :: fullOuts os
  | .crashed _ :: os => fullOuts os

end Verif
