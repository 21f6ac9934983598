import Verif.Proofs.JsonPrefix
import Verif.Props.Serialise
import Verif.Props.Groups2
import Verif.Props.KeyGen
/-
C60: records survive the bytes `Serialize` returns.  C61: truncated bytes are refused.
-/
namespace Verif

theorem version_of_toStruct {s : SState} {st : StateStruct} (h : s.toStruct = .ok st) : st.version = s.version := by
  unfold SState.toStruct at h
  split at h
  · cases h; rfl
  · cases h

/-- The versions in a record's structure are those of its states. -/
theorem Rec.toStruct_versions {r : Rec} {st : SessionStruct} (h : r.toStruct = .ok st) (hv : ∀ s ∈ r.state :: r.prevStates, InInt64 s.version) :
    InInt64 st.state.version ∧ ∀ p ∈ st.previous, InInt64 p.version := by
  obtain ⟨h1, h2⟩ := Rec.toStruct_ok h
  refine ⟨by rw [version_of_toStruct h1]; exact hv _ List.mem_cons_self, ?_⟩
  intro p hp
  have : (Res.ok p : Res StateStruct) ∈ r.prevStates.map SState.toStruct := by rw [h2]; exact List.mem_map_of_mem hp
  obtain ⟨s, hs, e⟩ := List.mem_map.1 this
  rw [version_of_toStruct e]
  exact hv _ (List.mem_cons_of_mem _ hs)

/-- **C60 (session record).** For every session record (of states whose version is a Go `int`): if every state is initialised,
`Serialize` returns bytes from which `NewSessionFromBytes` rebuilds a record with exactly the same current state and the same archived states in
the same order; otherwise `Serialize` panics. -/
theorem C60_session_bytes (r : Rec) (hv : ∀ s ∈ r.state :: r.prevStates, InInt64 s.version) :
    ((∀ s ∈ r.state :: r.prevStates, s.Initialised) →
      ∃ b r', r.serialize = .ok b ∧ Rec.ofBytes b = .ok r' ∧ r'.state = r.state ∧ r'.prevStates = r.prevStates ∧ r'.fresh = false) ∧
    ((∃ s ∈ r.state :: r.prevStates, ¬ s.Initialised) → r.serialize = .panic) := by
  obtain ⟨h1, h2⟩ := C21_record_roundtrip r
  constructor
  · intro h
    obtain ⟨st, r', e1, e2, e3⟩ := h1 h
    obtain ⟨v1, v2⟩ := Rec.toStruct_versions e1 hv
    exact ⟨st.toJson.enc, r', by rw [Rec.serialize, e1]; rfl, by rw [Rec.ofBytes_enc st v1 v2]; exact e2, e3⟩
  · intro h
    rw [Rec.serialize, h2 h]; rfl

/-- **C60 (session state).** -/
theorem C60_state_bytes (s : SState) (hv : InInt64 s.version) :
    (s.Initialised → ∃ b, s.serialize = .ok b ∧ SState.ofBytes b = .ok s) ∧ (¬ s.Initialised → s.serialize = .panic) := by
  constructor
  · intro h
    obtain ⟨st, hst⟩ := (SState.toStruct_ok_iff s).2 h
    refine ⟨st.toJson.enc, by rw [SState.serialize, hst]; rfl, ?_⟩
    rw [SState.ofBytes, unmarshal_marshal st.json_plain (st.json_reads (by rw [version_of_toStruct hst]; exact hv))]
    exact (SState.ofRaw_raw st).trans (SState.roundtrip hst)
  · intro h
    rcases SState.toStruct_cases s with h' | h'
    · exact absurd ((SState.toStruct_ok_iff s).1 h') h
    · rw [SState.serialize, h']; rfl

/-- **C60 (no confusion).** Records with the same bytes have the same current and archived states. -/
theorem C60_session_injective (r r' : Rec) (hv : ∀ s ∈ r.state :: r.prevStates, InInt64 s.version)
    (hv' : ∀ s ∈ r'.state :: r'.prevStates, InInt64 s.version) (b : Bytes) (h : r.serialize = .ok b) (h' : r'.serialize = .ok b) :
    r.state = r'.state ∧ r.prevStates = r'.prevStates := by
  have key : ∀ r : Rec, (∀ s ∈ r.state :: r.prevStates, InInt64 s.version) → r.serialize = .ok b →
      Rec.ofBytes b = .ok (Rec.ofStates r.state r.prevStates) := by
    intro r hv h
    rw [Rec.serialize] at h
    cases hst : r.toStruct with
    | err e => rw [hst] at h; cases h
    | panic => rw [hst] at h; cases h
    | ok st =>
      rw [hst] at h
      obtain ⟨v1, v2⟩ := Rec.toStruct_versions hst hv
      have hb : b = st.toJson.enc := by simpa using h.symm
      rw [hb, Rec.ofBytes_enc st v1 v2]
      exact Rec.ofStruct_toStruct hst
  have e := (key r hv h).symm.trans (key r' hv' h')
  simp only [Res.ok.injEq] at e
  exact ⟨by rw [← ofStates_state r.state r.prevStates, e, ofStates_state], by rw [← ofStates_prev r.state r.prevStates, e, ofStates_prev]⟩

/-- **C60 (sender key record).** `NewSenderKeyFromBytes` on the bytes `Serialize` returns rebuilds the same states in order, with the same skipped
keys, key id, chain and public signing key; a record that owns all its private signing keys comes back identical. -/
theorem C60_sender_key_bytes (r : GRec) :
    ∃ r', GRec.ofBytes r.serialize = .ok r' ∧ r'.length = r.length ∧
      (∀ (i : Nat) s, r[i]? = some s → ∃ s', r'[i]? = some s' ∧ s'.keys = s.keys ∧ s'.keyId = s.keyId ∧ s'.chain = s.chain ∧
        s'.signing.pub = s.signing.pub ∧ (∀ k, s.signing.priv = some k → s'.signing.priv = some k)) ∧
      ((∀ s ∈ r, s.signing.priv ≠ none) → r' = r) := by
  obtain ⟨r', h1, h2⟩ := C23_roundtrip_partial r
  exact ⟨r', by rw [GRec.serialize, GRec.ofBytes_enc]; exact h1, h2⟩

/-- **C60 (sender key state).** The same for a single state (`NewSenderKeyStateFromBytes`). -/
theorem C60_sender_key_state_bytes (s : SKState) :
    ∃ s', SKState.ofBytes s.serialize = .ok s' ∧ s'.keys = s.keys ∧ s'.keyId = s.keyId ∧ s'.chain = s.chain ∧ s'.signing.pub = s.signing.pub ∧
      (∀ k, s.signing.priv = some k → s' = s) := by
  refine ⟨s.reloaded, ?_, rfl, rfl, rfl, rfl, fun k hk => reloaded_self hk⟩
  rw [SKState.ofBytes, SKState.serialize, unmarshal_marshal (SKStateStruct.json_plain _) (SKStateStruct.json_reads _) (SKStateStruct.json_shallow _)]
  exact (SKState.ofRaw_raw _).trans (ofStruct_toStruct s)

/-- **C60 (prekey record).** The stored identifier and keys (as `Serialize` wrote them) come back unchanged, and so does the private key. -/
theorem C60_preKey_bytes (id : UInt32) (kp : IdKeyPair) :
    ∃ b q, (newPreKey id kp).serialize = .ok b ∧ PreKey.ofBytes b = .ok q ∧ q.struct = (newPreKey id kp).struct ∧ q.pair.priv = kp.priv := by
  refine ⟨_, PreKey.ofStruct (newPreKey id kp).struct, rfl, ?_, rfl, (C22_prekey_roundtrip_partial id kp).2.2⟩
  simp only [PreKey.ofBytes, jsonPreKey, jsonSer, unmarshal_marshal (PreKeyStruct.json_plain _) (PreKeyStruct.json_reads _) (PreKeyStruct.json_shallow _)]
  rfl

/-- **C60 (signed prekey record).** -/
theorem C60_signedPreKey_bytes (id : UInt32) (t : Int64) (kp : IdKeyPair) (sig : Sig64) :
    ∃ b q, (newSignedPreKey id t kp sig).serialize = .ok b ∧ SignedPreKey.ofBytes b = .ok q ∧ q.struct = (newSignedPreKey id t kp sig).struct ∧
      q.pair.priv = kp.priv ∧ q.signature = sig ∧ q.struct.timestamp = t := by
  refine ⟨_, SignedPreKey.ofStruct (newSignedPreKey id t kp sig).struct, rfl, ?_, rfl, (C22_signed_prekey_roundtrip_partial id t kp sig).2.2.2.2, (C22_signed_prekey_roundtrip_partial id t kp sig).2.2.1, rfl⟩
  simp only [SignedPreKey.ofBytes, jsonSignedPreKey, jsonSer, unmarshal_marshal (SignedPreKeyStruct.json_plain _) (SignedPreKeyStruct.json_reads _) (SignedPreKeyStruct.json_shallow _)]
  rfl

/-! ### C61 -/

theorem unmarshal_prefix {α : Type} (dec : List (Bytes × JVal) → Option α) {fields : List (String × JVal)} (hp : (jStruct fields).plain) {p t : Bytes}
    (h : (jStruct fields).enc = p ++ t) (ht : t ≠ []) : unmarshalJson dec p = none := by
  have hp : (JVal.obj (fields.map fun (n, v) => (ascii n, v))).plain := hp
  have h : (JVal.obj (fields.map fun (n, v) => (ascii n, v))).enc = p ++ t := h
  rw [unmarshalJson, scan_prefix hp h ht]
  rfl

/-- **C61 (session record).** If only a proper prefix of a session record's bytes was stored, loading reports an error: no panic, no
different record. -/
theorem C61_session_truncated (r : Rec) (b p t : Bytes) (h : r.serialize = .ok b) (hb : b = p ++ t) (ht : t ≠ []) :
    Rec.ofBytes p = .err .badJson := by
  rw [Rec.serialize] at h
  cases hst : r.toStruct with
  | err e => rw [hst] at h; cases h
  | panic => rw [hst] at h; cases h
  | ok st =>
    rw [hst] at h
    simp only [Res.map_ok, Res.ok.injEq] at h
    rw [Rec.ofBytes, unmarshal_prefix _ st.json_plain (h.trans hb) ht]

/-- **C61 (session state).** -/
theorem C61_state_truncated (s : SState) (b p t : Bytes) (h : s.serialize = .ok b) (hb : b = p ++ t) (ht : t ≠ []) :
    SState.ofBytes p = .err .badJson := by
  rw [SState.serialize] at h
  cases hst : s.toStruct with
  | err e => rw [hst] at h; cases h
  | panic => rw [hst] at h; cases h
  | ok st =>
    rw [hst] at h
    simp only [Res.map_ok, Res.ok.injEq] at h
    rw [SState.ofBytes, unmarshal_prefix _ st.json_plain (h.trans hb) ht]

/-- **C61 (sender key record).** -/
theorem C61_sender_key_truncated (r : GRec) (p t : Bytes) (hb : r.serialize = p ++ t) (ht : t ≠ []) : GRec.ofBytes p = .err .badJson := by
  rw [GRec.ofBytes, unmarshal_prefix _ (senderKey_json_plain _) hb ht]

/-- **C61 (sender key state).** -/
theorem C61_sender_key_state_truncated (s : SKState) (p t : Bytes) (hb : s.serialize = p ++ t) (ht : t ≠ []) : SKState.ofBytes p = .err .badJson := by
  rw [SKState.ofBytes, unmarshal_prefix _ (SKStateStruct.json_plain _) hb ht]

/-- **C61 (prekey records).** -/
theorem C61_preKey_truncated (k : PreKey) (b p t : Bytes) (h : k.serialize = .ok b) (hb : b = p ++ t) (ht : t ≠ []) :
    PreKey.ofBytes p = .err .badJson := by
  simp only [PreKey.serialize, jsonPreKey, jsonSer, Res.ok.injEq] at h
  simp only [PreKey.ofBytes, jsonPreKey, jsonSer]
  rw [unmarshal_prefix _ (PreKeyStruct.json_plain _) (h.trans hb) ht]
  rfl

theorem C61_signedPreKey_truncated (k : SignedPreKey) (b p t : Bytes) (h : k.serialize = .ok b) (hb : b = p ++ t) (ht : t ≠ []) :
    SignedPreKey.ofBytes p = .err .badJson := by
  simp only [SignedPreKey.serialize, jsonSignedPreKey, jsonSer, Res.ok.injEq] at h
  simp only [SignedPreKey.ofBytes, jsonSignedPreKey, jsonSer]
  rw [unmarshal_prefix _ (SignedPreKeyStruct.json_plain _) (h.trans hb) ht]
  rfl

/-- **C61 (messages).** A truncated JSON message is refused. -/
theorem C61_message_truncated (b p t : Bytes) (hb : b = p ++ t) (ht : t ≠ []) :
    (∀ m : SignalMsg, jsonSM.ser m.struct = .ok b → newSignalMessageFromBytes jsonSM p = .err .badJson) ∧
    (∀ m : PreKeyMsg, jsonPK.ser m.struct = .ok b → newPreKeyMessageFromBytes jsonPK jsonSM p = .err .badJson) ∧
    (∀ m : SenderKeyMsg, m.signedSerialize jsonSK = .ok b → newSenderKeyMessageFromBytes jsonSK p = .err .badJson) ∧
    (∀ m : SKDMsg, m.serialize jsonSKD = .ok b → newSKDMFromBytes jsonSKD p = .err .badJson) := by
  refine ⟨?_, ?_, ?_, ?_⟩
  · intro m h
    simp only [jsonSM, jsonSer, Res.ok.injEq] at h
    simp only [newSignalMessageFromBytes, jsonSM, jsonSer]
    rw [unmarshal_prefix _ (SMStruct.json_plain _) (h.trans hb) ht]; rfl
  · intro m h
    simp only [jsonPK, jsonSer, Res.ok.injEq] at h
    simp only [newPreKeyMessageFromBytes, jsonPK, jsonSer]
    rw [unmarshal_prefix _ (PKStruct.json_plain _) (h.trans hb) ht]; rfl
  · intro m h
    simp only [SenderKeyMsg.signedSerialize, jsonSK, jsonSer, Res.ok.injEq] at h
    simp only [newSenderKeyMessageFromBytes, jsonSK, jsonSer]
    rw [unmarshal_prefix _ (SKStruct.json_plain _) (h.trans hb) ht]; rfl
  · intro m h
    simp only [SKDMsg.serialize, jsonSKD, jsonSer, Res.ok.injEq] at h
    simp only [newSKDMFromBytes, jsonSKD, jsonSer]
    rw [unmarshal_prefix _ (SKDStruct.json_plain _) (h.trans hb) ht]; rfl

/-- Bytes that are JSON but lack the state make the loader crash (`null` is what `json.Marshal` writes for a nil pointer); a sender key record
loads as empty instead. -/
theorem C60_null_crashes : Rec.ofBytes (ascii "null") = .panic ∧ Rec.ofBytes (ascii "{}") = .panic ∧ GRec.ofBytes (ascii "null") = .ok [] := by
  have h1 : scan (ascii "null") = some .null := rfl
  have h2 : scan (ascii "{}") = some (.obj []) := rfl
  refine ⟨?_, ?_, ?_⟩
  · simp only [Rec.ofBytes, unmarshalJson, h1]; rfl
  · simp only [Rec.ofBytes, unmarshalJson, h2]; rfl
  · simp only [GRec.ofBytes, unmarshalJson, h1]; rfl

section
open Toy
set_option maxRecDepth 100000
/-- Non-vacuity of C60 and C61: Alice's record after a second bundle (one archived state with a receiving chain). -/
def storedRec : Rec := recOf (alice4.processBundle aliceEnv 5 bob bundle).2.1 bob
example : (∀ s ∈ storedRec.state :: storedRec.prevStates, s.Initialised) ∧ storedRec.prevStates.length = 1 ∧
    (∀ s ∈ storedRec.state :: storedRec.prevStates, s.version = 3) := by decide +kernel
example : (storedRec.serialize.bind Rec.ofBytes).map (fun r => (r.state, r.prevStates)) = .ok (storedRec.state, storedRec.prevStates) := by decide +kernel
example : storedRec.serialize.map (fun b => decide (1000 < b.length)) = .ok true := by decide +kernel
end

end Verif
