import Verif.Model.State
/-
state/record/session.go: the session record (current state plus archived states).
-/
namespace Verif

/-- state/record/session.go:9. -/
def archivedStatesMaxLength : Nat := 40

/-- state/record/session.go:98-103 `Session`.  Session states are heap objects shared by
pointer: `cur` and `prev` hold addresses into `heap`; `next` is the next unused address. -/
structure Rec where
  heap : Nat → SState
  next : Nat
  cur : Nat
  prev : List Nat
  fresh : Bool

namespace Rec

/-- The current state. (state/record/session.go:119 `SessionState`) -/
def state (r : Rec) : SState := r.heap r.cur
/-- The archived states. (state/record/session.go:125 `PreviousSessionStates`) -/
def prevStates (r : Rec) : List SState := r.prev.map r.heap

/-- Write through a pointer. E.g. state/record/session.go: the record holds pointers to states. -/
def set (r : Rec) (a : Nat) (s : SState) : Rec :=
  { r with heap := fun x => if x = a then s else r.heap x }

/-- state/record/session.go:33-42 `NewSession`. -/
def new : Rec := { heap := fun _ => SState.new, next := 1, cur := 0, prev := [], fresh := true }

/-- state/record/session.go:131-146 `HasSessionState`. -/
def hasSessionState (r : Rec) (version : Int) (baseKey : Bytes) : Bool :=
  let m (s : SState) : Bool :=
    s.version == version && baseKey == (s.senderBaseKey.map serPub).getD []
  m r.state || r.prevStates.any m

/-- state/record/session.go:157-165,175-183 `PromoteState`: prepend the current state to the
archive, make `a` current, drop the last archived state beyond 40. -/
def promote (r : Rec) (a : Nat) : Rec :=
  let prev := r.cur :: r.prev
  { r with cur := a, prev := if archivedStatesMaxLength < prev.length then prev.dropLast else prev }

/-- state/record/session.go:151-153 `ArchiveCurrentState`. -/
def archiveCurrentState (r : Rec) : Rec :=
  promote { r with heap := fun x => if x = r.next then SState.new else r.heap x, next := r.next + 1 } r.next

end Rec

/-- state/record/session.go:92-95 `SessionStructure`. -/
structure SessionStruct where
  state : StateStruct
  previous : List StateStruct
deriving DecidableEq

/-- Evaluate results left to right, stopping at the first error or panic. state/record/session.go:52-66. -/
def seqRes {α : Type} : List (Res α) → Res (List α)
  | [] => .ok []
  | x :: xs => x.bind fun a => (seqRes xs).map (a :: ·)

/-- state/record/session.go:188-197 `structure` (archived states first, then the current one). -/
def Rec.toStruct (r : Rec) : Res SessionStruct :=
  (seqRes (r.prevStates.map SState.toStruct)).bind fun prev =>
    r.state.toStruct.map fun s => ⟨s, prev⟩

/-- A record built from values: distinct fresh objects, current at address 0. state/record/session.go:68-73. -/
def Rec.ofStates (cur : SState) (prev : List SState) : Rec :=
  { heap := fun x => ((cur :: prev)[x]?).getD SState.new, next := prev.length + 1, cur := 0,
    prev := (List.range prev.length).map (· + 1), fresh := false }

/-- state/record/session.go:46-74 `NewSessionFromStructure`. -/
def Rec.ofStruct (st : SessionStruct) : Res Rec :=
  (seqRes (st.previous.map SState.ofStruct)).bind fun prev =>
    (SState.ofStruct st.state).map fun s => Rec.ofStates s prev

end Verif
