import Verif.Spec.Window
/-
Specification of group conversations (used by C78).  Nothing here mentions keys or the code.

A *line* is what one member says in one group.  Its owner opens it and can then invite others to it; an
invitation lets a member hear the line from the message that was next when the invitation was written.
Messages of a line are numbered 0, 1, 2, ….  Who was invited keeps a receive window (Spec/Window) per line.
-/
namespace Verif.GroupTalk

/-- At most 2000 ahead, 2000 skipped numbers remembered. -/
def limits : Window.Limits := ⟨2000, 2000⟩

/-- `M`: members, `L`: lines. -/
structure Room (M L : Type) where
  /-- How many messages were said on a line; `none`: not open. -/
  said : L → Option Nat
  /-- Invitations written so far: the line and the number of its next message. -/
  invites : List (L × Nat)
  /-- Messages sent so far: line, number, text. -/
  notes : List (L × Nat × List UInt8)
  /-- What a member can hear: how many invitations to the line it has used, and its window. -/
  ear : M → L → Option (Nat × Window)

/-- Nothing has happened. -/
def Room.start {M L : Type} : Room M L := ⟨fun _ => none, [], [], fun _ _ => none⟩

inductive Event (M L : Type) where
  /-- The owner of the line writes an invitation (opening the line if need be). -/
  | invite (l : L)
  /-- A member uses the `i`-th invitation. -/
  | accept (who : M) (i : Nat)
  | say (l : L) (text : List UInt8)
  /-- A member receives the `i`-th message. -/
  | deliver (who : M) (i : Nat)
  /-- A member receives bytes as a message of a line. -/
  | noise (who : M) (l : L) (bytes : List UInt8)

inductive Outcome where
  | done
  | got (text : List UInt8)
  | rejected
  | whatever
deriving DecidableEq

section
variable {M L : Type} [DecidableEq M] [DecidableEq L]

def Room.setSaid (g : Room M L) (l : L) (c : Nat) : Room M L := { g with said := fun x => if x = l then some c else g.said x }

def Room.setEar (g : Room M L) (who : M) (l : L) (e : Nat × Window) : Room M L :=
  { g with ear := fun x y => if x = who ∧ y = l then some e else g.ear x y }

/-- `owner l` is whose line `l` is.  `none`: outside the claim (speaking on a line that was never opened, hearing one without an invitation, no such message or invitation,
using an invitation to or hearing one's own line, using more than 2000 invitations to the same line, more than 2^32 messages on a line). -/
def Room.step (owner : L → M) (g : Room M L) : Event M L → Option (Outcome × Room M L)
  | .invite l =>
    let c := (g.said l).getD 0
    some (.done, { g.setSaid l c with invites := g.invites ++ [(l, c)] })
  | .accept who i =>
    match g.invites[i]? with
    | none => none
    | some (l, c) =>
      if who = owner l then none
      else match g.ear who l with
        | none => some (.done, g.setEar who l (1, ⟨c, []⟩))
        | some (q, w) => if 2000 ≤ q then none else some (.done, g.setEar who l (q + 1, w))
  | .say l text =>
    match g.said l with
    | none => none
    | some c =>
      if 2 ^ 32 ≤ c + 1 then none
      else some (.done, { g.setSaid l (c + 1) with notes := g.notes ++ [(l, c, text)] })
  | .deliver who i =>
    match g.notes[i]? with
    | none => none
    | some (l, c, text) =>
      match g.ear who l with
      | none => none
      | some (q, w) =>
        match Window.accept limits w c with
        | none => some (.rejected, g)
        | some (_, w') => some (.got text, g.setEar who l (q, w'))
  | .noise who l _ => if who = owner l then none else some (.whatever, g)

def Room.run (owner : L → M) : Room M L → List (Event M L) → Option (List Outcome)
  | _, [] => some []
  | g, e :: es =>
    match g.step owner e with
    | none => none
    | some (o, g') => (g'.run owner es).map (o :: ·)
end

end Verif.GroupTalk
