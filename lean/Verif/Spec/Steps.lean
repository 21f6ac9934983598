/-
What somebody who measures a computation sees of it, besides its result: the usual model of timing and cache attacks.  No values of variables.
-/
namespace Verif.Steps

/-- One observable step. -/
inductive Step where
  /-- the statement on this line of this file was executed -/
  | line (file : String) (n : Nat)
  /-- this element of this array was read or written (its address is seen, not its content) -/
  | index (array : String) (is : List Nat)
  /-- a condition was evaluated, with this outcome -/
  | branch (taken : Bool)
  /-- a library function was called with byte slices of these lengths -/
  | lib (f : String) (lengths : List Nat)
deriving DecidableEq

/-- A computation with the steps it takes. -/
structure Timed (α : Type _) where
  val : α
  steps : List Step

/-- Doing nothing takes no steps. -/
def Timed.pure {α : Type _} (a : α) : Timed α := ⟨a, []⟩
/-- One computation after the other: first the steps of the first, then those of the second. -/
def Timed.bind {α β : Type _} (x : Timed α) (f : α → Timed β) : Timed β := ⟨(f x.val).val, x.steps ++ (f x.val).steps⟩

instance : Monad Timed where
  pure := Timed.pure
  bind := Timed.bind

/-- A computation of one step without result. -/
def tick (s : Step) : Timed Unit := ⟨(), [s]⟩

/-- A condition: its outcome is seen. -/
def cond {α : Type _} (c : Bool) (t e : Timed α) : Timed α := do
  tick (.branch c)
  if c then t else e

end Verif.Steps
