import Verif.Props.GroupTalk
import Verif.Model.GroupCrash
import Verif.Spec.GroupTalkCrash
/- C95: group conversations whose members die in the middle of calls. -/
set_option linter.unusedSimpArgs false
namespace Verif
open GroupTalk (Room Outcome)

/-- One completed event. -/
theorem RoomInv.event {C : Crypto} {S : Ser SKStruct} {T : Ser SKDStruct} (hSer : StdSK S) (hT : StdSKD T) (hA : C.AesLaw) (hS : C.SigLaw) {d : GroupDraws}
    (hd : d.signing ≠ none) {rand : Arr 64} {e : GroupTalk.Event Addr SenderKeyName} {w : GWorld} {g g' : Room Addr SenderKeyName} {o : Outcome} (h : RoomInv C S T w g)
    (hlen : ∀ n text, e = .say n text → text.length < 2 ^ 63)
    (hnoise : ∀ who n b, e = .noise who n b → ∀ x ∈ w.invites, x.1 = n → ∀ m, newSKDMFromBytes T x.2 = .ok m → NotSignedBy C S m.id m.signatureKey b)
    (hs : g.step SenderKeyName.sender e = some (o, g')) :
    GOut.Is o (w.step C S T d rand e).1 ∧ RoomInv C S T (w.step C S T d rand e).2 g' := by
  cases e with
  | invite n => exact h.invite hT hd hs
  | accept who i => exact h.accept hs
  | say n text => exact h.say hSer hS (hlen n text rfl) hs
  | deliver who i => exact h.deliver hA hs
  | noise who n b => exact h.noise (hnoise who n b rfl) hs

/-- An event only adds to the invitations and messages. -/
theorem GWorld.step_grows (C : Crypto) (S : Ser SKStruct) (T : Ser SKDStruct) (d : GroupDraws) (rand : Arr 64) (w : GWorld) (e : GroupTalk.Event Addr SenderKeyName) :
    (∃ xs, (w.step C S T d rand e).2.invites = w.invites ++ xs) ∧ ∃ ys, (w.step C S T d rand e).2.wire = w.wire ++ ys := by
  have same : ∀ l : List (SenderKeyName × Bytes), ∃ xs, l = l ++ xs := fun l => ⟨[], by simp⟩
  cases e with
  | invite n =>
    simp only [GWorld.step]
    generalize (GStore.create C d (w.store n.sender) n).1.bind _ = r
    cases r with
    | ok b => exact ⟨⟨_, rfl⟩, same _⟩
    | err e => exact ⟨same _, same _⟩
    | panic => exact ⟨same _, same _⟩
  | say n text =>
    simp only [GWorld.step]
    generalize (GStore.encrypt C S rand (w.store n.sender) n text).1.bind _ = r
    cases r with
    | ok b => exact ⟨same _, ⟨_, rfl⟩⟩
    | err e => exact ⟨same _, same _⟩
    | panic => exact ⟨same _, same _⟩
  | accept who i =>
    simp only [GWorld.step]
    cases w.invites[i]? with
    | none => exact ⟨same _, same _⟩
    | some y =>
      obtain ⟨n, b⟩ := y
      simp only
      cases newSKDMFromBytes T b <;> exact ⟨same _, same _⟩
  | deliver who i =>
    simp only [GWorld.step]
    cases w.wire[i]? with
    | none => exact ⟨same _, same _⟩
    | some y => exact ⟨same _, same _⟩
  | noise who n b => exact ⟨same _, same _⟩

/-- What an event adds in the specification; and whoever hears a line afterwards was invited before. -/
theorem Room.step_grows {C : Crypto} {S : Ser SKStruct} {T : Ser SKDStruct} {w : GWorld} {g g' : Room Addr SenderKeyName} {e : GroupTalk.Event Addr SenderKeyName} {o : Outcome}
    (h : RoomInv C S T w g) (hs : g.step SenderKeyName.sender e = some (o, g')) :
    (∃ xs, g'.invites = g.invites ++ xs) ∧ (∃ ys, g'.notes = g.notes ++ ys) ∧
      ∀ n, (∃ who, g'.ear who n ≠ none) → ∃ (i c : Nat), g.invites[i]? = some (n, c) := by
  have same : ∀ {α : Type} (l : List α), ∃ xs, l = l ++ xs := fun l => ⟨[], by simp⟩
  have old : ∀ n, (∃ who, g.ear who n ≠ none) → ∃ (i c : Nat), g.invites[i]? = some (n, c) := by
    intro n hn
    have hl := (h.lines n).2
    cases hsd : g.said n with
    | none =>
      rw [hsd] at hl
      obtain ⟨who, hw⟩ := hn
      exact absurd (hl.1 who).2 hw
    | some c =>
      rw [hsd] at hl
      obtain ⟨K, hK⟩ := hl
      exact hK.invited hn
  have set : ∀ who l (x : Nat × Window), (∃ (i c : Nat), g.invites[i]? = some (l, c)) → ∀ n, (∃ who', (g.setEar who l x).ear who' n ≠ none) → ∃ (i c : Nat), g.invites[i]? = some (n, c) := by
    intro who l x hl n hn
    by_cases hnl : n = l
    · subst hnl; exact hl
    · apply old
      obtain ⟨who', hw⟩ := hn
      refine ⟨who', ?_⟩
      simpa [Room.setEar, hnl] using hw
  cases e with
  | invite n =>
    simp only [Room.step, Option.some.injEq, Prod.mk.injEq] at hs
    obtain ⟨-, rfl⟩ := hs
    exact ⟨⟨_, rfl⟩, same _, old⟩
  | say n text =>
    simp only [Room.step] at hs
    cases hsd : g.said n with
    | none => simp [hsd] at hs
    | some c =>
      simp only [hsd] at hs
      split at hs
      · simp at hs
      · simp only [Option.some.injEq, Prod.mk.injEq] at hs
        obtain ⟨-, rfl⟩ := hs
        exact ⟨same _, ⟨_, rfl⟩, old⟩
  | accept who i =>
    simp only [Room.step] at hs
    cases hi : g.invites[i]? with
    | none => simp [hi] at hs
    | some x =>
      obtain ⟨n, c⟩ := x
      simp only [hi] at hs
      split at hs
      · simp at hs
      · cases he : g.ear who n with
        | none =>
          simp only [he, Option.some.injEq, Prod.mk.injEq] at hs
          obtain ⟨-, rfl⟩ := hs
          exact ⟨same _, same _, set _ _ _ ⟨i, c, hi⟩⟩
        | some qw =>
          obtain ⟨q, win⟩ := qw
          simp only [he] at hs
          split at hs
          · simp at hs
          · simp only [Option.some.injEq, Prod.mk.injEq] at hs
            obtain ⟨-, rfl⟩ := hs
            exact ⟨same _, same _, set _ _ _ ⟨i, c, hi⟩⟩
  | deliver who i =>
    simp only [Room.step] at hs
    cases hi : g.notes[i]? with
    | none => simp [hi] at hs
    | some x =>
      obtain ⟨n, c, text⟩ := x
      simp only [hi] at hs
      cases he : g.ear who n with
      | none => simp [he] at hs
      | some qw =>
        obtain ⟨q, win⟩ := qw
        simp only [he] at hs
        cases ha : Window.accept GroupTalk.limits win c with
        | none =>
          simp only [ha, Option.some.injEq, Prod.mk.injEq] at hs
          obtain ⟨-, rfl⟩ := hs
          exact ⟨same _, same _, old⟩
        | some pw =>
          simp only [ha, Option.some.injEq, Prod.mk.injEq] at hs
          obtain ⟨-, rfl⟩ := hs
          exact ⟨same _, same _, set _ _ _ (old n ⟨who, by rw [he]; simp⟩)⟩
  | noise who n b =>
    simp only [Room.step] at hs
    split at hs
    · simp at hs
    · simp only [Option.some.injEq, Prod.mk.injEq] at hs
      obtain ⟨-, rfl⟩ := hs
      exact ⟨same _, same _, old⟩

/-- Forgetting what the last event wrote and sent. -/
theorem RoomInv.trim {C : Crypto} {S : Ser SKStruct} {T : Ser SKDStruct} {w w' : GWorld} {g g' : Room Addr SenderKeyName} (h : RoomInv C S T w g) (h' : RoomInv C S T w' g')
    (hwi : ∃ xs, w'.invites = w.invites ++ xs) (hww : ∃ ys, w'.wire = w.wire ++ ys) (hgi : ∃ xs, g'.invites = g.invites ++ xs) (hgn : ∃ ys, g'.notes = g.notes ++ ys)
    (hear : ∀ n, (∃ who, g'.ear who n ≠ none) → ∃ (i c : Nat), g.invites[i]? = some (n, c)) :
    RoomInv C S T { w' with invites := w.invites, wire := w.wire } { g' with invites := g.invites, notes := g.notes } := by
  refine ⟨h.invites, h.wire, fun n => ?_⟩
  have l1 : w.invites.length = g.invites.length := by simpa using congrArg List.length h.invites
  have l2 : w.wire.length = g.notes.length := by simpa using congrArg List.length h.wire
  have up1 : ∀ (i : Nat) x, g.invites[i]? = some x → g'.invites[i]? = some x ∧ w'.invites[i]? = w.invites[i]? := by
    intro i x hi
    have hlt := (List.getElem?_eq_some_iff.1 hi).1
    obtain ⟨xs, hx⟩ := hgi
    obtain ⟨ys, hy⟩ := hwi
    rw [hx, hy, List.getElem?_append_left hlt, List.getElem?_append_left (by omega)]
    exact ⟨hi, rfl⟩
  have up2 : ∀ (i : Nat) x, g.notes[i]? = some x → g'.notes[i]? = some x ∧ w'.wire[i]? = w.wire[i]? := by
    intro i x hi
    have hlt := (List.getElem?_eq_some_iff.1 hi).1
    obtain ⟨xs, hx⟩ := hgn
    obtain ⟨ys, hy⟩ := hww
    rw [hx, hy, List.getElem?_append_left hlt, List.getElem?_append_left (by omega)]
    exact ⟨hi, rfl⟩
  obtain ⟨h0, hl⟩ := h'.lines n
  refine ⟨h0, ?_⟩
  show match g'.said n with
    | none => _
    | some c => _
  cases hsd : g'.said n with
  | none =>
    rw [hsd] at hl
    exact ⟨hl.1, fun i c hi => hl.2.1 i c (up1 i _ hi).1, fun i c text hi => hl.2.2 i c text (up2 i _ hi).1⟩
  | some c =>
    rw [hsd] at hl
    obtain ⟨K, hK⟩ := hl
    refine ⟨K, hK.zero, hK.keyLen, hK.clamped, hK.small, hK.own, ?_, ?_, hK.ears, hear n⟩
    · intro i c' hi
      obtain ⟨b, h1, h2⟩ := hK.invites i c' (up1 i _ hi).1
      exact ⟨b, by rw [← (up1 i _ hi).2]; exact h1, h2⟩
    · intro i c' text hi
      obtain ⟨b, h1, h2⟩ := hK.notes i c' text (up2 i _ hi).1
      exact ⟨b, by rw [← (up2 i _ hi).2]; exact h1, h2⟩

theorem GWorld.xstep_invites (C : Crypto) (S : Ser SKStruct) (T : Ser SKDStruct) (d : GroupDraws) (rand : Arr 64) (w : GWorld) (e : GroupTalk.Event Addr SenderKeyName × Option Bool)
    {x : SenderKeyName × Bytes} (hx : x ∈ w.invites) : x ∈ (w.xstep C S T d rand e).2.invites := by
  obtain ⟨e, b⟩ := e
  cases b with
  | none => exact GWorld.step_invites C S T d rand w e hx
  | some b => cases b <;> exact hx

theorem GWorld.xrun_invites (C : Crypto) (S : Ser SKStruct) (T : Ser SKDStruct) (draws : Nat → GroupDraws) (rand : Nat → Arr 64)
    (evs : List (GroupTalk.Event Addr SenderKeyName × Option Bool)) (t : Nat)
    (w : GWorld) {x : SenderKeyName × Bytes} (hx : x ∈ w.invites) : x ∈ (w.xrun C S T draws rand t evs).2.invites := by
  induction evs generalizing t w with
  | nil => exact hx
  | cons e es ih => exact ih _ _ (GWorld.xstep_invites C S T _ _ w e hx)

theorem RoomInv.xrun {C : Crypto} {S : Ser SKStruct} {T : Ser SKDStruct} (hSer : StdSK S) (hT : StdSKD T) (hA : C.AesLaw) (hS : C.SigLaw) (draws : Nat → GroupDraws)
    (hd : ∀ t, (draws t).signing ≠ none) (rand : Nat → Arr 64) (evs : List (GroupTalk.Event Addr SenderKeyName × Option Bool)) (t : Nat) (w : GWorld) (g : Room Addr SenderKeyName)
    (h : RoomInv C S T w g)
    (hlen : ∀ n text x, (GroupTalk.Event.say n text, x) ∈ evs → text.length < 2 ^ 63)
    (hnoise : ∀ who n b y, (GroupTalk.Event.noise who n b, y) ∈ evs → ∀ x ∈ (w.xrun C S T draws rand t evs).2.invites, x.1 = n → ∀ m, newSKDMFromBytes T x.2 = .ok m →
      NotSignedBy C S m.id m.signatureKey b)
    (outs : List Outcome) (ho : g.runWithCrashes SenderKeyName.sender evs = some outs) : GOutsAre outs (w.xrun C S T draws rand t evs).1 := by
  induction evs generalizing t w g outs with
  | nil =>
    simp only [Room.runWithCrashes, Option.some.injEq] at ho
    subst ho
    trivial
  | cons p es ih =>
    obtain ⟨e, y⟩ := p
    have hl' := fun n text x (ht : (GroupTalk.Event.say n text, x) ∈ es) => hlen n text x (List.mem_cons_of_mem _ ht)
    have hn' := fun who n b x (hb : (GroupTalk.Event.noise who n b, x) ∈ es) => hnoise who n b x (List.mem_cons_of_mem _ hb)
    have hev : ∀ o g', g.step SenderKeyName.sender e = some (o, g') →
        GOut.Is o (w.step C S T (draws t) (rand t) e).1 ∧ RoomInv C S T (w.step C S T (draws t) (rand t) e).2 g' := by
      intro o g' hs
      refine h.event hSer hT hA hS (hd t) (fun n text he => hlen n text y (by rw [he]; exact List.mem_cons_self)) ?_ hs
      intro who n b he x hx
      exact hnoise who n b y (by rw [he]; exact List.mem_cons_self) x (GWorld.xrun_invites C S T draws rand _ t w hx)
    cases hs : g.step SenderKeyName.sender e with
    | none => cases y <;> simp [Room.runWithCrashes, Room.lose, hs] at ho
    | some x =>
      obtain ⟨o, g'⟩ := x
      obtain ⟨hout, hinv⟩ := hev o g' hs
      cases y with
      | none =>
        simp only [Room.runWithCrashes, hs] at ho
        cases hr : g'.runWithCrashes SenderKeyName.sender es with
        | none => simp [hr] at ho
        | some os =>
          simp only [hr, Option.map_some, Option.some.injEq] at ho
          subst ho
          exact ⟨hout, ih (t + 1) _ g' hinv hl' hn' os hr⟩
      | some stored =>
        simp only [Room.runWithCrashes, Room.lose, hs, Option.map_some] at ho
        cases stored with
        | false => exact ih (t + 1) w g h hl' hn' outs ho
        | true =>
          obtain ⟨a1, a2⟩ := GWorld.step_grows C S T (draws t) (rand t) w e
          obtain ⟨b1, b2, b3⟩ := Room.step_grows h hs
          exact ih (t + 1) _ _ (h.trim hinv a1 a2 b1 b2 b3) hl' hn' outs ho

/-- **C95.** Any number of users in any number of groups, as in C78, any of whom may die during any call - creating or processing a distribution message, encrypting, decrypting - before or after the
call stores its record, and continue later from the stored records: every completed call ends as the specification says.  A crash before the store is as if the call was
never made, a crash after it loses exactly the result of that call - the distribution message, the message or the plaintext - and nothing else. -/
theorem C95_group_crashes (C : Crypto) (S : Ser SKStruct) (hSer : StdSK S) (T : Ser SKDStruct) (hT : StdSKD T) (hA : C.AesLaw) (hS : C.SigLaw) (w : GWorld)
    (hw : (∀ who n, (w.store who).load n = .ok none) ∧ w.invites = [] ∧ w.wire = [])
    (draws : Nat → GroupDraws) (hd : ∀ t, (draws t).signing ≠ none) (rand : Nat → Arr 64) (evs : List (GroupTalk.Event Addr SenderKeyName × Option Bool))
    (hlen : ∀ n text x, (GroupTalk.Event.say n text, x) ∈ evs → text.length < 2 ^ 63)
    (hnoise : ∀ who n b y, (GroupTalk.Event.noise who n b, y) ∈ evs → ∀ x ∈ (w.xrun C S T draws rand 0 evs).2.invites, x.1 = n → ∀ m, newSKDMFromBytes T x.2 = .ok m →
      NotSignedBy C S m.id m.signatureKey b)
    (outs : List Outcome) (ho : Room.start.runWithCrashes SenderKeyName.sender evs = some outs) :
    GOutsAre outs (w.xrun C S T draws rand 0 evs).1 := by
  refine RoomInv.xrun hSer hT hA hS draws hd rand evs 0 w Room.start ⟨?_, ?_, ?_⟩ hlen hnoise outs ho
  · rw [hw.2.1]; rfl
  · rw [hw.2.2]; rfl
  · intro n
    exact ⟨rfl, fun who => ⟨hw.1 who n, rfl⟩, fun i c => by simp [Room.start], fun i c text => by simp [Room.start]⟩

section
open Toy

/-- The conversation of C78 with crashes: an invitation lost, a message lost before and after the store, a plaintext lost, an invitation used twice because of a crash. -/
def gxEvents : List (GroupTalk.Event Addr SenderKeyName × Option Bool) :=
  [(.invite gwAdaX, some false), (.invite gwAdaX, some true), (.say gwAdaX [8], some false), (.say gwAdaX [8], some true), (.invite gwAdaX, none), (.accept gwBen 0, some true),
   (.accept gwBen 0, none), (.say gwAdaX [1], none), (.say gwAdaX [2, 2], none), (.deliver gwBen 1, some false), (.deliver gwBen 1, some true), (.deliver gwBen 1, none),
   (.deliver gwBen 0, none), (.noise gwBen gwAdaX [1, 2, 3], some true), (.say gwAdaX [3], none), (.deliver gwBen 2, none)]
def gxOuts : List Outcome := [.done, .done, .done, .done, .rejected, .got [1], .done, .got [3]]

theorem gx_spec : Room.start.runWithCrashes SenderKeyName.sender gxEvents = some gxOuts := by decide +kernel

set_option maxRecDepth 100000 in
/-- Non-vacuity of C95: the hypotheses hold of this conversation. -/
example : GOutsAre gxOuts (gwWorld.xrun C protoSK protoSKD gwDraws (fun _ => gRand) 0 gxEvents).1 := by
  refine C95_group_crashes C protoSK (.inl rfl) protoSKD (.inl rfl) aesLaw sigLaw gwWorld ⟨fun _ _ => rfl, rfl, rfl⟩ gwDraws (fun _ => by simp [gwDraws, gDraws]) _ gxEvents ?_ ?_ gxOuts gx_spec
  · intro n text x h
    simp [gxEvents] at h
    rcases h with ⟨⟨-, rfl⟩, -⟩ | ⟨⟨-, rfl⟩, -⟩ | ⟨⟨-, rfl⟩, -⟩ | ⟨⟨-, rfl⟩, -⟩ | ⟨⟨-, rfl⟩, -⟩ <;> simp
  · intro who n b y h
    simp [gxEvents] at h
    obtain ⟨⟨-, -, rfl⟩, -⟩ := h
    intro x _ _ m _ m' content hm
    have : (newSenderKeyMessageFromBytes protoSK [1, 2, 3]).isOk = false := by decide +kernel
    rw [hm] at this
    simp [Res.isOk] at this

end

end Verif
