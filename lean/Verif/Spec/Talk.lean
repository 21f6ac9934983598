import Verif.Spec.Window
/-
Specification of a two-party conversation (used by C03).  Nothing here mentions keys or the code.

The parties take *turns*: a party stays in its turn until it receives something from a newer turn of
the peer.  Alice's turns are 1, 3, 5, …, Bob's 2, 4, 6, …; turn 0 means Bob has not heard anything yet.
Messages of a turn are numbered 0, 1, 2, ….  For each incoming turn a receiver keeps a receive
window (Spec/Window); it remembers the five newest incoming turns.
-/
namespace Verif.Talk

inductive Side where
  | alice
  | bob
deriving DecidableEq

def Side.peer : Side → Side
  | .alice => .bob
  | .bob => .alice

/-- One party: its turn, how many messages it sent in it, and the receive windows of remembered
incoming turns, oldest first. -/
structure Party where
  turn : Nat
  sent : Nat
  inbox : List (Nat × Window)

/-- What becomes of an arriving message. -/
inductive Verdict where
  | accepted (p : Party)
  /-- already used, skipped too long ago, or too far ahead -/
  | refused
  /-- of a turn that is no longer remembered -/
  | forgotten

/-- At most 5000 ahead, 2000 skipped numbers remembered per turn. -/
def limits : Window.Limits := ⟨5000, 2000⟩

/-- Message number `i` of turn `k` arrives. -/
def Party.receive (p : Party) (k i : Nat) : Verdict :=
  match p.inbox.find? (fun x => x.1 == k) with
  | some (_, w) =>
    match Window.accept limits w i with
    | some (_, w') => .accepted { p with inbox := p.inbox.map fun x => if x.1 = k then (k, w') else x }
    | none => .refused
  | none =>
    if k = p.turn + 1 then
      match Window.accept limits Window.empty i with
      | some (_, w') => .accepted { turn := k + 1, sent := 0, inbox := Window.lastN 5 (p.inbox ++ [(k, w')]) }
      | none => .refused
    else .forgotten

/-- A message that was sent. -/
structure Note where
  sender : Side
  turn : Nat
  number : Nat
  text : List UInt8

structure Conv where
  alice : Party
  bob : Party
  notes : List Note

def Conv.party (c : Conv) : Side → Party
  | .alice => c.alice
  | .bob => c.bob

def Conv.set (c : Conv) (s : Side) (p : Party) : Conv :=
  match s with
  | .alice => { c with alice := p }
  | .bob => { c with bob := p }

/-- Somebody sends a text, or the network delivers the `i`-th message sent so far to its recipient (any
message, any number of times, in any order). -/
inductive Event where
  | say (s : Side) (text : List UInt8)
  | deliver (i : Nat)

inductive Outcome where
  | said
  | got (text : List UInt8)
  | rejected
deriving DecidableEq

/-- `none`: outside the claim (Bob speaks before he heard anything, there is no such message, or its
turn is no longer remembered). -/
def Conv.step (c : Conv) : Event → Option (Outcome × Conv)
  | .say s text =>
    let p := c.party s
    if p.turn = 0 then none
    else
      let c' := c.set s { p with sent := p.sent + 1 }
      some (.said, { c' with notes := c.notes ++ [⟨s, p.turn, p.sent, text⟩] })
  | .deliver i =>
    match c.notes[i]? with
    | none => none
    | some n =>
      match (c.party n.sender.peer).receive n.turn n.number with
      | .accepted p => some (.got n.text, c.set n.sender.peer p)
      | .refused => some (.rejected, c)
      | .forgotten => none

def Conv.run : Conv → List Event → Option (List Outcome)
  | _, [] => some []
  | c, e :: es =>
    match c.step e with
    | none => none
    | some (o, c') => (c'.run es).map (o :: ·)

/-- The `i`-th message is the first its recipient sees of its turn, and more than 5000 messages of that turn were sent before it. -/
def Conv.abrupt (c : Conv) : Event → Prop
  | .say _ _ => False
  | .deliver i => ∃ n, c.notes[i]? = some n ∧ (∀ x ∈ (c.party n.sender.peer).inbox, x.1 ≠ n.turn) ∧ n.number > 5000

/-- No turn opens with an abrupt message. -/
def Conv.gentle : Conv → List Event → Prop
  | _, [] => True
  | c, e :: es => ¬ c.abrupt e ∧ ∀ o c', c.step e = some (o, c') → c'.gentle es

/-- Right after Alice processed Bob's bundle. -/
def Conv.start : Conv := ⟨⟨1, 0, [(0, Window.empty)]⟩, ⟨0, 0, []⟩, []⟩

end Verif.Talk
