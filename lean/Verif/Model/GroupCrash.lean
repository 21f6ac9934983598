import Verif.Model.GroupWorld
/-
The users of Model/GroupWorld, who may die at any moment.  Every call of groups/ makes at most one `StoreSenderKey` call (groups/cipher.go:66, groups/cipher.go:104,
groups/session_builder.go:45, groups/session_builder.go:65), so dying leaves the store either as it was or as the completed call leaves it.
-/
namespace Verif

/-- An event that is completed (`none`), or one during which the user who acts dies: before (`some false`) or after (`some true`) the call's `StoreSenderKey`, if it makes one.  What the
call would have returned - invitation, message or plaintext - is lost.  groups/cipher.go:37-69, groups/cipher.go:73-107, groups/session_builder.go:37-46, groups/session_builder.go:49-84. -/
def GWorld.xstep (C : Crypto) (S : Ser SKStruct) (T : Ser SKDStruct) (d : GroupDraws) (rand : Arr 64) (w : GWorld) : GroupTalk.Event Addr SenderKeyName × Option Bool → Option GOut × GWorld
  | (e, none) => let x := w.step C S T d rand e; (some x.1, x.2)
  | (_, some false) => (none, w)
  | (e, some true) => (none, { (w.step C S T d rand e).2 with invites := w.invites, wire := w.wire })

/-- A list of events, the `t`-th reading `draws t` and `rand t` from the random source: what the completed calls returned, and the world at the end. (no .go counterpart: the environment.) -/
def GWorld.xrun (C : Crypto) (S : Ser SKStruct) (T : Ser SKDStruct) (draws : Nat → GroupDraws) (rand : Nat → Arr 64) :
    Nat → GWorld → List (GroupTalk.Event Addr SenderKeyName × Option Bool) → List GOut × GWorld
  | _, w, [] => ([], w)
  | t, w, e :: es =>
    let x := w.xstep C S T (draws t) (rand t) e
    let rest := GWorld.xrun C S T draws rand (t + 1) x.2 es
    (x.1.toList ++ rest.1, rest.2)

end Verif
