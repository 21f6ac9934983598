import Verif.Props.Json
/-
C83: loading stored bytes that are damaged or were not written by the library.
-/
set_option linter.unusedSimpArgs false
namespace Verif

/-- A public key field that the loader indexes although it is empty. -/
def NoKey (b : Bytes) : Prop := b = []
/-- A public key field with the right type byte. -/
def KeyOk (b : Bytes) : Prop := ∃ rest, b = djbType :: rest

/-- A stored chain (null, or an object) whose loading crashes: it is null, its ratchet key is empty, or a message key or the chain key is null or missing. -/
def ChainCrashes : Option RawChain → Prop
  | none => True
  | some c => NoKey c.ratchetPub ∨ (KeyOk c.ratchetPub ∧ (none ∈ c.msgKeys ∨ c.chainKey = none))

/-- A stored session state whose loading crashes. -/
def StateCrashes : Option RawState → Prop
  | none => True
  | some s => NoKey s.localIdentity ∨ NoKey s.remoteIdentity ∨ NoKey s.senderBaseKey ∨ (∃ p, s.pendingPreKey = some p ∧ NoKey p.baseKey) ∨
      ChainCrashes s.senderChain ∨ ∃ c ∈ s.receiverChains, ChainCrashes c

/-- A stored sender key state whose loading crashes. -/
def SenderKeyStateCrashes : Option RawSKState → Prop
  | none => True
  | some s => NoKey s.signingPub ∨ (KeyOk s.signingPub ∧ (none ∈ s.keys ∨ s.chain = none))

theorem point_crash_iff (b : Bytes) : decodePoint b = .panic ↔ NoKey b := by
  unfold decodePoint NoKey
  cases b with
  | nil => simp
  | cons t rest => by_cases h : t = djbType <;> simp [h]

theorem point_ok_iff (b : Bytes) : (∃ k, decodePoint b = .ok k) ↔ KeyOk b := by
  unfold decodePoint KeyOk
  cases b with
  | nil => simp
  | cons t rest => by_cases h : t = djbType <;> simp [h]

theorem allSome_none {α : Type} (l : List (Option α)) : allSome l = none ↔ none ∈ l := by
  induction l with
  | nil => simp [allSome]
  | cons x l ih => cases x with
    | none => simp [allSome]
    | some a => simp [allSome, ih]

theorem both_panic {α β : Type} (x : Res α) (y : Res β) : both x y = .panic ↔ x = .panic ∨ y = .panic := by
  cases x <;> cases y <;> simp [both]

theorem collect_panic {α : Type} (l : List (Res α)) : collect l = .panic ↔ .panic ∈ l := by
  induction l with
  | nil => simp [collect]
  | cons x l ih =>
    simp only [collect, List.mem_cons]
    cases x <;> cases hc : collect l <;> simp_all

theorem map_panic_iff {α β : Type} (f : α → β) (x : Res α) : x.map f = .panic ↔ x = .panic := by cases x <;> simp [Res.map]

theorem point_then {α : Type} (b : Bytes) (f : Key32 → Res α) (P : Prop) (hf : ∀ k, f k = .panic ↔ P) :
    (decodePoint b).bind f = .panic ↔ NoKey b ∨ (KeyOk b ∧ P) := by
  rw [← point_crash_iff, ← point_ok_iff]
  cases h : decodePoint b with
  | ok k => simp [hf]
  | err e => simp
  | panic => simp

theorem Chain.ofRaw_panic (c : Option RawChain) : Chain.ofRaw c = .panic ↔ ChainCrashes c := by
  cases c with
  | none => simp [Chain.ofRaw, ChainCrashes]
  | some c =>
    simp only [Chain.ofRaw, ChainCrashes]
    apply point_then
    intro k
    rw [← allSome_none]
    cases allSome c.msgKeys <;> cases c.chainKey <;> simp

/-- **C83 (session state).** Loading a stored session state crashes exactly when a required part is null, missing or empty; any other bytes give a state or an error. -/
theorem C83_state_crashes_iff (b : Bytes) : SState.ofBytes b = .panic ↔ ∃ s, unmarshalJson RawState.ofJson b = some s ∧ StateCrashes (some s) := by
  unfold SState.ofBytes
  cases h : unmarshalJson RawState.ofJson b with
  | none => simp
  | some st =>
    simp only [Option.some.injEq, exists_eq_left', SState.ofRaw, map_panic_iff, both_panic, collect_panic, point_crash_iff, StateCrashes, List.mem_map,
      Chain.ofRaw_panic]
    cases hp : st.pendingPreKey with
    | none => simp
    | some p => simp [map_panic_iff, PendingPreKey.ofStruct, point_crash_iff]

theorem SKState.ofRaw_panic (s : Option RawSKState) : SKState.ofRaw s = .panic ↔ SenderKeyStateCrashes s := by
  cases s with
  | none => simp [SKState.ofRaw, SenderKeyStateCrashes]
  | some s =>
    simp only [SKState.ofRaw, SenderKeyStateCrashes]
    apply point_then
    intro k
    rw [← allSome_none]
    cases allSome s.keys <;> cases s.chain <;> simp

/-- **C83 (sender key state).** -/
theorem C83_sender_key_state_crashes_iff (b : Bytes) :
    SKState.ofBytes b = .panic ↔ ∃ s, unmarshalJson RawSKState.ofJson b = some s ∧ SenderKeyStateCrashes (some s) := by
  unfold SKState.ofBytes
  cases h : unmarshalJson RawSKState.ofJson b with
  | none => simp
  | some st => simp [SKState.ofRaw_panic]

theorem seqRes_panic {α : Type} (l : List (Res α)) (h : seqRes l = .panic) : .panic ∈ l := by
  induction l with
  | nil => simp [seqRes] at h
  | cons x l ih =>
    cases x with
    | panic => simp
    | err e => simp [seqRes] at h
    | ok a =>
      simp only [seqRes, Res.bind_ok, map_panic_iff] at h
      exact List.mem_cons_of_mem _ (ih h)

theorem seqRes_ok {α : Type} (l : List (Res α)) {as : List α} (h : seqRes l = .ok as) : .panic ∉ l := by
  induction l generalizing as with
  | nil => simp
  | cons x l ih =>
    cases x with
    | panic => simp [seqRes] at h
    | err e => simp [seqRes] at h
    | ok a =>
      simp only [seqRes, Res.bind_ok] at h
      cases hs : seqRes l with
      | ok as' => simpa using ih hs
      | err e => simp [hs] at h
      | panic => simp [hs] at h

theorem SState.ofRaw_panic (s : Option RawState) : SState.ofRaw s = .panic ↔ StateCrashes s := by
  cases s with
  | none => simp [SState.ofRaw, StateCrashes]
  | some st =>
    simp only [SState.ofRaw, map_panic_iff, both_panic, collect_panic, point_crash_iff, StateCrashes, List.mem_map, Chain.ofRaw_panic]
    cases hp : st.pendingPreKey with
    | none => simp
    | some p => simp [map_panic_iff, PendingPreKey.ofStruct, point_crash_iff]

/-- **C83 (session record).** Bytes that are not JSON of the record's shape give an error.  Otherwise loading cannot crash unless the current or an archived state has a
required part null, missing or empty, and in that case no record is loaded. -/
theorem C83_session_record_partial (b : Bytes) :
    (unmarshalJson RawSession.ofJson b = none → ∃ e, Rec.ofBytes b = .err e) ∧
    ∀ r, unmarshalJson RawSession.ofJson b = some r →
      (Rec.ofBytes b = .panic → StateCrashes r.state ∨ ∃ s ∈ r.previous, StateCrashes s) ∧
      (∀ x, Rec.ofBytes b = .ok x → ¬ StateCrashes r.state ∧ ∀ s ∈ r.previous, ¬ StateCrashes s) := by
  constructor
  · intro h; exact ⟨.badJson, by simp only [Rec.ofBytes, h]⟩
  · intro r hr
    have hb : Rec.ofBytes b = Rec.ofRaw r := by simp only [Rec.ofBytes, hr]
    rw [hb]
    unfold Rec.ofRaw
    constructor
    · intro h
      cases h1 : seqRes (r.previous.map SState.ofRaw) with
      | ok prev =>
        simp only [h1, Res.bind_ok, map_panic_iff, SState.ofRaw_panic] at h
        exact .inl h
      | err e => simp [h1] at h
      | panic =>
        have := seqRes_panic _ h1
        simp only [List.mem_map, SState.ofRaw_panic] at this
        exact .inr this
    · intro x h
      cases h1 : seqRes (r.previous.map SState.ofRaw) with
      | err e => simp [h1] at h
      | panic => simp [h1] at h
      | ok prev =>
        simp only [h1, Res.bind_ok] at h
        refine ⟨?_, ?_⟩
        · rw [← SState.ofRaw_panic]; intro hp; simp [hp] at h
        · intro s hs hc
          rw [← SState.ofRaw_panic] at hc
          exact seqRes_ok _ h1 (List.mem_map.2 ⟨s, hs, hc⟩)

/-- **C83 (sender key record).** -/
theorem C83_sender_key_record_partial (b : Bytes) :
    (unmarshalJson rawSenderKey b = none → ∃ e, GRec.ofBytes b = .err e) ∧
    ∀ l, unmarshalJson rawSenderKey b = some l →
      (GRec.ofBytes b = .panic → ∃ s ∈ l, SenderKeyStateCrashes s) ∧ (∀ x, GRec.ofBytes b = .ok x → ∀ s ∈ l, ¬ SenderKeyStateCrashes s) := by
  constructor
  · intro h; exact ⟨.badJson, by simp only [GRec.ofBytes, h]⟩
  · intro l hl
    have hb : GRec.ofBytes b = seqRes (l.map SKState.ofRaw) := by simp only [GRec.ofBytes, hl]
    rw [hb]
    constructor
    · intro h
      have := seqRes_panic _ h
      simp only [List.mem_map, SKState.ofRaw_panic] at this
      exact this
    · intro x h s hs hc
      rw [← SKState.ofRaw_panic] at hc
      exact seqRes_ok _ h (List.mem_map.2 ⟨s, hs, hc⟩)

/-- **C83 (prekey records).** Prekey and signed prekey records load or give an error, whatever the bytes. -/
theorem C83_preKey_records (b : Bytes) : PreKey.ofBytes b ≠ .panic ∧ SignedPreKey.ofBytes b ≠ .panic := by
  constructor
  · unfold PreKey.ofBytes jsonPreKey jsonSer
    simp only [ne_eq, map_panic_iff]
    split <;> simp
  · unfold SignedPreKey.ofBytes jsonSignedPreKey jsonSer
    simp only [ne_eq, map_panic_iff]
    split <;> simp

/-- **C83, false.** There are bytes of every kind of record on which loading crashes the program instead of returning an error: a record without a state, a state without keys,
a list of sender key states with a null entry, a sender key state without a chain key. -/
theorem C83_crash_false : Rec.ofBytes (ascii "{}") = .panic ∧ SState.ofBytes (ascii "{}") = .panic ∧
    GRec.ofBytes (ascii "{\"SenderKeyStates\":[null]}") = .panic ∧
    SKState.ofBytes (ascii "{\"KeyID\":1,\"SigningKeyPublic\":\"BQ==\"}") = .panic := by
  refine ⟨C60_null_crashes.2.1, ?_, ?_, ?_⟩ <;> decide +kernel
section
open Toy
set_option maxRecDepth 100000
/-- Non-vacuity: the stored record of Json.lean loads; so none of its states has a missing part. -/
example : (storedRec.serialize.bind Rec.ofBytes).isOk = true := by decide +kernel
/-- A damaged public key (wrong type byte) is an error, no crash. -/
example : SKState.ofBytes (ascii "{\"KeyID\":1,\"SigningKeyPublic\":\"Bg==\"}") = .err .badKeyType := by decide +kernel
end

end Verif
