import Verif.Model.Hostile
import Verif.Model.ByteStore
/-
The two users of Model/World, each of whom also does other things with the same stores: they talk to other people, generate keys and
maintain their stores.
-/
namespace Verif

/-- Something a user does besides the conversation: a call of the session API (session/cipher.go:65, 132, 162; session/session.go:177), generating a key pair
(ecc/curve.go:53-82; the pair is what the application makes of it), or an operation on the stores (state/store/*.go; tests/stores.go:36-38, 60-71, 117-119, 150-161). -/
inductive Errand where
  | call (c : Call)
  | generate
  | saveIdentity (a : Addr) (k : Key32)
  | deleteSession (a : Addr)
  | storePreKey (id : UInt32) (kp : IdKeyPair)
  | removePreKey (id : UInt32)
  | storeSignedPreKey (id : UInt32) (kp : IdKeyPair)
  | removeSignedPreKey (id : UInt32)

/-- What it does to the user's stores and random source. session/cipher.go:65, 132, 162; session/session.go:177; ecc/curve.go:53-82; state/store/*.go. -/
def Node.errand (E : Env) (n : Node) : Errand → Node
  | .call c => let x := n.st.call E n.pos c; ⟨x.2.1, x.2.2⟩
  | .generate => ⟨n.st, n.pos + 1⟩
  | .saveIdentity a k => ⟨{ n.st with identities := upd n.st.identities a (some k) }, n.pos⟩
  | .deleteSession a => ⟨{ n.st with sessions := upd n.st.sessions a none }, n.pos⟩
  | .storePreKey id kp => ⟨{ n.st with preKeys := upd n.st.preKeys id (some kp) }, n.pos⟩
  | .removePreKey id => ⟨{ n.st with preKeys := upd n.st.preKeys id none }, n.pos⟩
  | .storeSignedPreKey id kp => ⟨{ n.st with signedPreKeys := upd n.st.signedPreKeys id (some kp) }, n.pos⟩
  | .removeSignedPreKey id => ⟨{ n.st with signedPreKeys := upd n.st.signedPreKeys id none }, n.pos⟩

/-- The errand is about `peer`. (no .go counterpart: the environment.) -/
def Errand.About (peer : Addr) : Errand → Prop
  | .call c => c.addr = peer
  | .saveIdentity a _ => a = peer
  | .deleteSession a => a = peer
  | _ => False

/-- The errand uses, replaces or removes the one-time prekey with this id. (no .go counterpart: the environment.) -/
def Errand.NeedsPreKey (id : UInt32) : Errand → Prop
  | .call (.decryptPreKey _ m) => ∃ o, m.struct.preKeyId = some o ∧ o.value = id
  | .storePreKey i _ => i = id
  | .removePreKey i => i = id
  | _ => False

/-- The errand replaces or removes the signed prekey with this id. (no .go counterpart: the environment.) -/
def Errand.ReplacesSigned (id : UInt32) : Errand → Prop
  | .storeSignedPreKey i _ => i = id
  | .removeSignedPreKey i => i = id
  | _ => False

/-- An event: one of the conversation (with made-up packets), or an errand of one of the users. (no .go counterpart: the environment.) -/
inductive CEvent where
  | talk (e : HEvent)
  | errand (s : Talk.Side) (x : Errand)

/-- One event. session/cipher.go:65, 132, 162; session/session.go:177. -/
def World.cstep (env : Talk.Side → Env) (addr : Talk.Side → Addr) (w : World) : CEvent → List HOut × World
  | .talk e => let x := w.hstep env addr e; ([x.1], x.2)
  | .errand s x => ([], ⟨upd w.node s ((w.node s).errand (env s) x), w.wire⟩)

/-- What is observed of the conversation (no .go counterpart: the environment). -/
def World.crun (env : Talk.Side → Env) (addr : Talk.Side → Addr) : World → List CEvent → List HOut
  | _, [] => []
  | w, e :: es => (w.cstep env addr e).1 ++ (w.cstep env addr e).2.crun env addr es

/-- The events of the conversation (no .go counterpart: the environment). -/
def talkEvents : List CEvent → List HEvent
  | [] => []
  | .talk e :: es => e :: talkEvents es
  | .errand .. :: es => talkEvents es

end Verif
