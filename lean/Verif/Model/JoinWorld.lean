import Verif.Model.World
import Verif.Model.GroupWorld
import Verif.Spec.JoinTalk
/-
Two users of session/ who are also users of groups/ (with any number of others), and who send each other their sender key distribution messages over their session, as the library's documentation
asks for.
-/
namespace Verif
open Talk (Side)

/-- How the application marks what a plaintext is: an ordinary text, or a serialised distribution message with the group it is for.  Any marking that can be read back.  (No .go counterpart: the
library leaves this to the application.) -/
structure Framing where
  enc : Bytes ⊕ (String × Bytes) → Bytes
  dec : Bytes → Option (Bytes ⊕ (String × Bytes))
  law : ∀ x, dec (enc x) = some x

/-- Sessions and groups. (no .go counterpart: the environment.) -/
structure JWorld where
  talk : World
  rooms : GWorld

/-- What a call returned. The results of session/cipher.go:65, 132, 162 and of groups/session_builder.go:37, groups/cipher.go:37, 73. -/
inductive JOut where
  | said (r : Res Unit)
  | heard (r : Res Bytes)
  | joined (r : Res Unit)
  | group (o : GOut)
  | nothing

/-- One event; `d` and `rand` are what the group calls read from the random source.  A text: session/cipher.go:65 `Encrypt`.  An invitation: groups/session_builder.go:49 `Create`,
protocol/sender_key_distribution_message.go:136 `Serialize`, session/cipher.go:65 `Encrypt`.  A delivery: session/cipher.go:132 `Decrypt` or session/cipher.go:162 `DecryptMessage` and, for an
invitation, protocol/sender_key_distribution_message.go:20 `NewSenderKeyDistributionMessageFromBytes` and groups/session_builder.go:37 `Process`, with the sender of the pairwise message as the
sender of the line. -/
def JWorld.step (F : Framing) (env : Side → Env) (addr : Side → Addr) (C : Crypto) (S : Ser SKStruct) (T : Ser SKDStruct) (d : GroupDraws) (rand : Arr 64) (w : JWorld) :
    JoinTalk.Event Addr SenderKeyName → JOut × JWorld
  | .say s text =>
    match w.talk.step env addr (.say s (F.enc (.inl text))) with
    | (.said r, t) => (.said r, { w with talk := t })
    | (_, t) => (.nothing, { w with talk := t })
  | .invite s n =>
    let x := (w.rooms.store n.sender).create C d n
    match x.1.bind fun m => m.serialize T with
    | .ok b =>
      let g : GWorld := { w.rooms.put n.sender x.2 with invites := w.rooms.invites ++ [(n, b)] }
      match w.talk.step env addr (.say s (F.enc (.inr (n.groupId, b)))) with
      | (.said r, t) => (.said r, ⟨t, g⟩)
      | (_, t) => (.nothing, ⟨t, g⟩)
    | .err e => (.said (.err e), { w with rooms := w.rooms.put n.sender x.2 })
    | .panic => (.said .panic, { w with rooms := w.rooms.put n.sender x.2 })
  | .deliver i =>
    match w.talk.wire[i]?, w.talk.step env addr (.deliver i) with
    | some (s, _), (.heard (.ok t), tw) =>
      match F.dec t with
      | some (.inl text) => (.heard (.ok text), { w with talk := tw })
      | some (.inr (g, b)) =>
        match newSKDMFromBytes T b with
        | .ok m => let x := (w.rooms.store (addr s.peer)).process ⟨g, addr s⟩ m; (.joined x.1, ⟨tw, w.rooms.put (addr s.peer) x.2⟩)
        | .err e => (.joined (.err e), { w with talk := tw })
        | .panic => (.joined .panic, { w with talk := tw })
      | none => (.nothing, { w with talk := tw })
    | _, (.heard r, tw) => (.heard r, { w with talk := tw })
    | _, (_, tw) => (.nothing, { w with talk := tw })
  | .group e => let x := w.rooms.step C S T d rand e; (.group x.1, { w with rooms := x.2 })

/-- A list of events, the `t`-th reading `draws t` and `rand t` from the random source: what the calls returned, and the world at the end. (no .go counterpart: the environment.) -/
def JWorld.run (F : Framing) (env : Side → Env) (addr : Side → Addr) (C : Crypto) (S : Ser SKStruct) (T : Ser SKDStruct) (draws : Nat → GroupDraws) (rand : Nat → Arr 64) :
    Nat → JWorld → List (JoinTalk.Event Addr SenderKeyName) → List JOut × JWorld
  | _, w, [] => ([], w)
  | t, w, e :: es =>
    let x := w.step F env addr C S T (draws t) (rand t) e
    let rest := JWorld.run F env addr C S T draws rand (t + 1) x.2 es
    (x.1 :: rest.1, rest.2)

end Verif
