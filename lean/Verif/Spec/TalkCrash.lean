import Verif.Spec.Talk
/-
Specification of a conversation whose participants may die in the middle of a call (used by C81).  Nothing here mentions keys or the code.
-/
namespace Verif.Talk

/-- The participant of event `e` dies during it: nothing was sent and nothing was shown to anybody.  If the event had taken effect (`stored`), the participant comes back as if it had been
completed; otherwise as if it had not begun. -/
def Conv.lose (c : Conv) (e : Event) (stored : Bool) : Option Conv :=
  (c.step e).map fun x => if stored then { x.2 with notes := c.notes } else c

/-- A conversation with crashes: `none` marks an event that was completed, `some stored` one during which the participant died.  The outcomes of the completed events. -/
def Conv.runWithCrashes : Conv → List (Event × Option Bool) → Option (List Outcome)
  | _, [] => some []
  | c, (e, none) :: es =>
    match c.step e with
    | none => none
    | some (o, c') => (c'.runWithCrashes es).map (o :: ·)
  | c, (e, some stored) :: es =>
    match c.lose e stored with
    | none => none
    | some c' => c'.runWithCrashes es

end Verif.Talk
