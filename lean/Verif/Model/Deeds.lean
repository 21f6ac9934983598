import Verif.Model.Crowd
import Verif.Model.CrashWorld
/-
One user's life: calls of the session API and operations on the stores (Model/Crowd), where the user may die between two store operations of a call (Model/CrashWorld).
-/
namespace Verif

/-- The store operations of a call, in order, and the position of the random source after it.
session/cipher.go:65-129, 132-160, 162-184; session/session.go:177-275. -/
def Store.callOps (E : Env) (st : Store) (pos : Nat) : Call → List Effect × Nat
  | .encrypt a pt => ((st.encryptTrace E a pt).2, pos)
  | .decrypt a m => let x := st.decryptTrace E pos a m; (x.2.2, x.2.1)
  | .decryptPreKey a m => let x := st.decryptPreKeyTrace E pos a m; (x.2.2, x.2.1)
  | .processBundle a b => let x := st.processBundleTrace E pos a b; (x.2.2, x.2.1)

/-- Something done to the end, or a call during which the user dies after `k` store operations. (no .go counterpart: the environment.) -/
structure Deed where
  what : Errand
  dies : Option Nat

/-- What it leaves. session/cipher.go:65, 132, 162; session/session.go:177; state/store/*.go.  (An operation on the stores is one step, so dying makes no difference to it.) -/
def Node.deed (E : Env) (n : Node) (d : Deed) : Node :=
  match d.what, d.dies with
  | .call c, some k => let x := n.st.callOps E n.pos c; n.cut x.1 x.2 k
  | x, _ => n.errand E x

/-- A life (no .go counterpart: the environment). -/
def Node.deeds (E : Env) (n : Node) (ds : List Deed) : Node := ds.foldl (fun n d => n.deed E d) n

end Verif
