import Verif.Model.Crowd
import Verif.Model.LiveWorld
/-
What a user with a live store does: as Model/Crowd, with the store of tests/stores.go.
-/
namespace Verif

/-- As `Node.errand`, with a store that hands out the stored object. session/cipher.go:65, 132, 162; session/session.go:177; ecc/curve.go:53-82; tests/stores.go:36-38, 60-71, 86-123, 150-161. -/
def LiveNode.errand (E : Env) (n : LiveNode) : Errand → LiveNode
  | .call c => let x := n.st.call E n.pos c; ⟨x.2.1, x.2.2⟩
  | .generate => ⟨n.st, n.pos + 1⟩
  | .saveIdentity a k => ⟨{ n.st with identities := upd n.st.identities a (some k) }, n.pos⟩
  | .deleteSession a => ⟨{ n.st with sessions := upd n.st.sessions a none }, n.pos⟩
  | .storePreKey id kp => ⟨{ n.st with preKeys := upd n.st.preKeys id (some kp) }, n.pos⟩
  | .removePreKey id => ⟨{ n.st with preKeys := upd n.st.preKeys id none }, n.pos⟩
  | .storeSignedPreKey id kp => ⟨{ n.st with signedPreKeys := upd n.st.signedPreKeys id (some kp) }, n.pos⟩
  | .removeSignedPreKey id => ⟨{ n.st with signedPreKeys := upd n.st.signedPreKeys id none }, n.pos⟩

/-- The user after some things done one after the other. (no .go counterpart: the environment.) -/
def LiveNode.doAll (E : Env) (n : LiveNode) (xs : List Errand) : LiveNode := xs.foldl (fun n x => n.errand E x) n

end Verif
