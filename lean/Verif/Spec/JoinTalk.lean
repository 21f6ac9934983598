import Verif.Spec.Talk
import Verif.Spec.GroupTalk
/-
Specification of groups whose invitations travel over a pairwise conversation (used by C105).  Nothing here mentions keys or the code.

Two people talk (Spec/Talk) and both take part in group conversations (Spec/GroupTalk).  A pairwise message is either a text or an invitation to a line of its sender; whoever gets an invitation
uses it at once.
-/
namespace Verif.JoinTalk
open Verif.Talk (Side Conv)
open Verif.GroupTalk (Room)

/-- `M`: members, `L`: lines. -/
structure Meet (M L : Type) where
  conv : Conv
  room : Room M L
  /-- What the pairwise messages sent so far are: a text, or the `k`-th invitation. -/
  mail : List (List UInt8 ⊕ Nat)

inductive Event (M L : Type) where
  /-- One of the two sends the other a text. -/
  | say (s : Side) (text : List UInt8)
  /-- One of the two writes an invitation to a line of its own (opening it if need be) and sends it to the other. -/
  | invite (s : Side) (l : L)
  /-- The network delivers the `i`-th pairwise message to its recipient. -/
  | deliver (i : Nat)
  /-- Anything that happens in the groups, to these two or to other members. -/
  | group (e : GroupTalk.Event M L)

inductive Outcome where
  | said
  | got (text : List UInt8)
  | joined
  | rejected
  | group (o : GroupTalk.Outcome)
deriving DecidableEq

section
variable {M L : Type} [DecidableEq M] [DecidableEq L]

/-- `who` names the two, `owner l` is whose line `l` is.  `none`: outside the claim (see Spec/Talk and Spec/GroupTalk; inviting to somebody else's line). -/
def Meet.step (who : Side → M) (owner : L → M) (m : Meet M L) : Event M L → Option (Outcome × Meet M L)
  | .say s text =>
    match m.conv.step (.say s []) with
    | none => none
    | some (_, c) => some (.said, { m with conv := c, mail := m.mail ++ [.inl text] })
  | .invite s l =>
    if owner l = who s then
      match m.conv.step (.say s []), m.room.step owner (.invite l) with
      | some (_, c), some (_, r) => some (.said, ⟨c, r, m.mail ++ [.inr m.room.invites.length]⟩)
      | _, _ => none
    else none
  | .deliver i =>
    match m.conv.notes[i]?, m.mail[i]?, m.conv.step (.deliver i) with
    | some _, some (.inl text), some (.got _, c) => some (.got text, { m with conv := c })
    | some n, some (.inr k), some (.got _, c) =>
      match m.room.step owner (.accept (who n.sender.peer) k) with
      | some (_, r) => some (.joined, { m with conv := c, room := r })
      | none => none
    | some _, some _, some (.rejected, _) => some (.rejected, m)
    | _, _, _ => none
  | .group e =>
    match m.room.step owner e with
    | none => none
    | some (o, r) => some (.group o, { m with room := r })

def Meet.run (who : Side → M) (owner : L → M) : Meet M L → List (Event M L) → Option (List Outcome)
  | _, [] => some []
  | m, e :: es =>
    match m.step who owner e with
    | none => none
    | some (o, m') => (m'.run who owner es).map (o :: ·)
end

/-- Right after Alice processed Bob's bundle; nothing has happened in the groups. -/
def Meet.start {M L : Type} : Meet M L := ⟨Conv.start, Room.start, []⟩

end Verif.JoinTalk
