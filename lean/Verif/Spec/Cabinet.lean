/-
What a user of the exported session-state methods expects, in terms of the calls made so far and nothing else.
-/
namespace Verif.Cabinet

/-- A call on the receiving side of a session state.  `E` are ratchet keys, `V` chain keys, `M` message keys. -/
inductive Op (E V M : Type) where
  /-- `AddReceiverChain(e, v)` -/
  | add (e : E) (v : V)
  /-- `SetReceiverChainKey(e, v)` -/
  | setChain (e : E) (v : V)
  /-- `SetMessageKeys(e, m)` -/
  | keep (e : E) (m : M)
  /-- `RemoveMessageKeys(e, n)` -/
  | take (e : E) (n : UInt32)

section
variable {E V M : Type} [DecidableEq E] (number : M → UInt32)

/-- The ratchet keys added, newest first (histories are given newest call first). -/
def added : List (Op E V M) → List E
  | [] => []
  | .add e _ :: h => e :: added h
  | _ :: h => added h

/-- The chains a state still has: the five added last. -/
def present (h : List (Op E V M)) : List E := (added h).take 5

/-- The chain key written last for `e`. -/
def lastChain (e : E) : List (Op E V M) → Option V
  | [] => none
  | .add e' v :: h => if e' = e then some v else lastChain e h
  | .setChain e' v :: h => if e' = e then some v else lastChain e h
  | _ :: h => lastChain e h

/-- The message keys kept for `e`, oldest first: what was kept and not taken since the chain was added, the newest 2000 of them. -/
def kept (e : E) : List (Op E V M) → List M
  | [] => []
  | .add e' _ :: h => if e' = e then [] else kept e h
  | .keep e' m :: h => if e' = e then (kept e h ++ [m]).drop ((kept e h).length + 1 - 2000) else kept e h
  | .take e' n :: h => if e' = e then (kept e h).eraseP (fun m => number m == n) else kept e h
  | _ :: h => kept e h

/-- Histories in which chains are added once, the other calls name a chain that is there, and only message keys that are there are removed:
the way the session cipher uses these methods. -/
def Legal : List (Op E V M) → Prop
  | [] => True
  | .add e _ :: h => e ∉ present h ∧ Legal h
  | .setChain e _ :: h => e ∈ present h ∧ Legal h
  | .keep e _ :: h => e ∈ present h ∧ Legal h
  | .take e n :: h => e ∈ present h ∧ (∃ m ∈ kept number e h, number m = n) ∧ Legal h

end
end Verif.Cabinet
