import Verif.Model.Groups
import Verif.Spec.GroupTalk
/-
Any number of users of groups/ connected by a network that carries serialised messages.  The distribution messages travel over some authentic channel (pairwise sessions).
-/
namespace Verif

/-- Parse (protocol/sender_key_message.go:21 `NewSenderKeyMessageFromBytes`) and decrypt (groups/cipher.go:73 `Decrypt`). -/
def GStore.hear (C : Crypto) (S : Ser SKStruct) (st : GStore) (n : SenderKeyName) (b : Bytes) : Res Bytes × GStore :=
  match newSenderKeyMessageFromBytes S b with
  | .ok m => st.decrypt C S n m
  | .err e => (.err e, st)
  | .panic => (.panic, st)

/-- All users' sender key stores, the serialised distribution messages and the serialised messages sent so far. (no .go counterpart: the environment.) -/
structure GWorld where
  store : Addr → GStore
  invites : List (SenderKeyName × Bytes)
  wire : List (SenderKeyName × Bytes)

/-- Replace one user's store. (no .go counterpart: the environment.) -/
def GWorld.put (w : GWorld) (a : Addr) (st : GStore) : GWorld := { w with store := fun x => if x = a then st else w.store x }

/-- What a call returned. The results of groups/session_builder.go:37 and 49, groups/cipher.go:37 and 73. -/
inductive GOut where
  | done (r : Res Unit)
  | heard (r : Res Bytes)
  | nothing
deriving DecidableEq

/-- One event; `d` and `rand` are what the call reads from the random source.  groups/session_builder.go:49 `Create` and protocol/sender_key_distribution_message.go:136 `Serialize`;
protocol/sender_key_distribution_message.go:20 and groups/session_builder.go:37 `Process`; groups/cipher.go:37 `Encrypt` and protocol/sender_key_message.go:151 `SignedSerialize`;
groups/cipher.go:73 `Decrypt`. -/
def GWorld.step (C : Crypto) (S : Ser SKStruct) (T : Ser SKDStruct) (d : GroupDraws) (rand : Arr 64) (w : GWorld) : GroupTalk.Event Addr SenderKeyName → GOut × GWorld
  | .invite n =>
    let x := (w.store n.sender).create C d n
    match x.1.bind fun m => m.serialize T with
    | .ok b => (.done (.ok ()), { w.put n.sender x.2 with invites := w.invites ++ [(n, b)] })
    | .err e => (.done (.err e), w.put n.sender x.2)
    | .panic => (.done .panic, w.put n.sender x.2)
  | .accept who i =>
    match w.invites[i]? with
    | none => (.nothing, w)
    | some (n, b) =>
      match newSKDMFromBytes T b with
      | .ok m => let x := (w.store who).process n m; (.done x.1, w.put who x.2)
      | .err e => (.done (.err e), w)
      | .panic => (.done .panic, w)
  | .say n text =>
    let x := (w.store n.sender).encrypt C S rand n text
    match x.1.bind fun m => m.signedSerialize S with
    | .ok b => (.done (.ok ()), { w.put n.sender x.2 with wire := w.wire ++ [(n, b)] })
    | .err e => (.done (.err e), w.put n.sender x.2)
    | .panic => (.done .panic, w.put n.sender x.2)
  | .deliver who i =>
    match w.wire[i]? with
    | none => (.nothing, w)
    | some (n, b) => let x := (w.store who).hear C S n b; (.heard x.1, w.put who x.2)
  | .noise who n b => let x := (w.store who).hear C S n b; (.heard x.1, w.put who x.2)

/-- A list of events, the `t`-th reading `draws t` and `rand t` from the random source: what the calls returned, and the world at the end. (no .go counterpart: the environment.) -/
def GWorld.run (C : Crypto) (S : Ser SKStruct) (T : Ser SKDStruct) (draws : Nat → GroupDraws) (rand : Nat → Arr 64) :
    Nat → GWorld → List (GroupTalk.Event Addr SenderKeyName) → List GOut × GWorld
  | _, w, [] => ([], w)
  | t, w, e :: es =>
    let x := w.step C S T (draws t) (rand t) e
    let rest := GWorld.run C S T draws rand (t + 1) x.2 es
    (x.1 :: rest.1, rest.2)

end Verif
