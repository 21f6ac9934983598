import Verif.Spec.GroupTalk
/-
Specification of a group conversation whose members may die in the middle of a call (used by C95).  Nothing here mentions keys or the code.
-/
namespace Verif.GroupTalk

section
variable {M L : Type} [DecidableEq M] [DecidableEq L]

/-- The member who acts in event `e` dies during it: nothing was sent, written or shown to anybody.  If the event had taken effect (`stored`), the member comes back as if it had been
completed; otherwise as if it had not begun. -/
def Room.lose (owner : L → M) (g : Room M L) (e : Event M L) (stored : Bool) : Option (Room M L) :=
  (g.step owner e).map fun x => if stored then { x.2 with invites := g.invites, notes := g.notes } else g

/-- A group conversation with crashes: `none` marks an event that was completed, `some stored` one during which the member died.  The outcomes of the completed events. -/
def Room.runWithCrashes (owner : L → M) : Room M L → List (Event M L × Option Bool) → Option (List Outcome)
  | _, [] => some []
  | g, (e, none) :: es =>
    match g.step owner e with
    | none => none
    | some (o, g') => (g'.runWithCrashes owner es).map (o :: ·)
  | g, (e, some stored) :: es =>
    match g.lose owner e stored with
    | none => none
    | some g' => g'.runWithCrashes owner es
end

end Verif.GroupTalk
