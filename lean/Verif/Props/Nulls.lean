import Verif.Proofs.JsonBare
import Verif.Props.Reformat
/-
C92: members that are null may be left out of stored records and JSON messages.
-/
namespace Verif
open Spec

/-- **C92.** Two documents without repeated names, nested not deeper than Go allows, that differ only in members that are null (at any depth) are loaded alike, however they are written. -/
theorem C92_null_members (d d' : Doc) (hd : d.Distinct) (hd' : d'.Distinct) (hs : d.Shallow) (hs' : d'.Shallow) (hb : d.bare = d'.bare) (t t' : Bytes) (h : Writes d t) (h' : Writes d' t') :
    LoadedAlike t t' := by
  refine ⟨?_, ?_, ?_, ?_, ?_, ?_, ?_, ?_, ?_, ?_⟩
  · rw [Rec.ofBytes, Rec.ofBytes, unmarshal_bare RawSession.ofJson_bare hd hd' hs hs' hb h h']
  · rw [SState.ofBytes, SState.ofBytes, unmarshal_bare RawState.ofJson_bare hd hd' hs hs' hb h h']
  · rw [GRec.ofBytes, GRec.ofBytes, unmarshal_bare rawSenderKey_bare hd hd' hs hs' hb h h']
  · rw [SKState.ofBytes, SKState.ofBytes, unmarshal_bare RawSKState.ofJson_bare hd hd' hs hs' hb h h']
  · simp only [PreKey.ofBytes, jsonPreKey, jsonSer, unmarshal_bare PreKeyStruct.ofJson_bare hd hd' hs hs' hb h h']
  · simp only [SignedPreKey.ofBytes, jsonSignedPreKey, jsonSer, unmarshal_bare SignedPreKeyStruct.ofJson_bare hd hd' hs hs' hb h h']
  · simp only [jsonSM, jsonSer, unmarshal_bare SMStruct.ofJson_bare hd hd' hs hs' hb h h']
  · simp only [jsonPK, jsonSer, unmarshal_bare PKStruct.ofJson_bare hd hd' hs hs' hb h h']
  · simp only [jsonSK, jsonSer, unmarshal_bare SKStruct.ofJson_bare hd hd' hs hs' hb h h']
  · simp only [jsonSKD, jsonSer, unmarshal_bare SKDStruct.ofJson_bare hd hd' hs hs' hb h h']

/-- The bytes are a text of a document without repeated names, nested not too deep. -/
def Plainly (b : Bytes) : Prop := ∃ d, Writes d b ∧ d.Distinct ∧ d.Shallow

/-- **C92 (own texts).** What the library writes has no repeated names, so its null members can be removed. -/
theorem C92_own_text :
    (∀ (r : Rec) b, r.serialize = .ok b → Plainly b) ∧ (∀ (s : SState) b, s.serialize = .ok b → Plainly b) ∧
    (∀ r : GRec, Plainly r.serialize) ∧ (∀ s : SKState, Plainly s.serialize) ∧
    (∀ (p : PreKey) b, p.serialize = .ok b → Plainly b) ∧ (∀ (p : SignedPreKey) b, p.serialize = .ok b → Plainly b) ∧
    (∀ (m : SMStruct) b, jsonSM.ser m = .ok b → Plainly b) ∧ (∀ (m : PKStruct) b, jsonPK.ser m = .ok b → Plainly b) ∧
    (∀ (m : SKStruct) b, jsonSK.ser m = .ok b → Plainly b) ∧ (∀ (m : SKDStruct) b, jsonSKD.ser m = .ok b → Plainly b) := by
  have own : ∀ {v : JVal}, v.plain → v.tidy → (hd : v.depth ≤ maxNestingDepth := by json_depth) → Plainly v.enc :=
    fun hp ht hd => ⟨_, writes_enc _ hp, distinct_of_tidy _ ht, (shallow_iff _).2 (Nat.not_lt.2 hd)⟩
  refine ⟨?_, ?_, ?_, ?_, ?_, ?_, ?_, ?_, ?_, ?_⟩
  · intro r b h; obtain ⟨st, -, rfl⟩ := serialize_text h; exact own st.json_plain st.json_tidy
  · intro r b h; obtain ⟨st, -, rfl⟩ := serialize_state_text h; exact own st.json_plain st.json_tidy
  · intro r; exact own (senderKey_json_plain _) (senderKey_json_tidy _)
  · intro s; exact own (SKStateStruct.json_plain _) (SKStateStruct.json_tidy _)
  · intro p b h; cases h; exact own (PreKeyStruct.json_plain _) (PreKeyStruct.json_tidy _)
  · intro p b h; cases h; exact own (SignedPreKeyStruct.json_plain _) (SignedPreKeyStruct.json_tidy _)
  · intro p b h; cases h; exact own (SMStruct.json_plain _) (SMStruct.json_tidy _)
  · intro p b h; cases h; exact own (PKStruct.json_plain _) (PKStruct.json_tidy _)
  · intro p b h; cases h; exact own (SKStruct.json_plain _) (SKStruct.json_tidy _)
  · intro p b h; cases h; exact own (SKDStruct.json_plain _) (SKDStruct.json_tidy _)

section
set_option maxRecDepth 100000
/-- The group message of Reformat.lean as the library writes it, but without the null member. -/
def bareVal : JVal := jStruct [("ID", jU32 1), ("Iteration", jU32 2), ("CipherText", jBytes (some [1, 2])), ("Version", jU32 3)]

example : bareVal.enc = ascii "{\"ID\":1,\"Iteration\":2,\"CipherText\":\"AQI=\",\"Version\":3}" := by decide +kernel

example : ∃ b d d', jsonSK.ser grpMsg = .ok b ∧ b ≠ bareVal.enc ∧ Writes d b ∧ Writes d' bareVal.enc ∧ d.Distinct ∧ d'.Distinct ∧ d.Shallow ∧
    d'.Shallow ∧ d.bare = d'.bare := by
  refine ⟨_, _, _, rfl, by decide +kernel, writes_enc _ (SKStruct.json_plain grpMsg), writes_enc _ (plain_jStruct _ (by simp only [List.map]; decide +kernel) (by simp [plain_jBytes, plain_jU32])),
    distinct_of_tidy _ (SKStruct.json_tidy _), distinct_of_tidy _ (tidy_jStruct _ (by simp only [List.map]; decide +kernel) (by simp [tidy_jBytes, tidy_jU32])),
    (shallow_iff _).2 (by decide +kernel), (shallow_iff _).2 (by decide +kernel), ?_⟩
  simp [bareVal, SKStruct.toJson, grpMsg, jStruct, JVal.den, denMembers, Doc.bare, bareMembers, jU32, jBytes]

/-- A null number is read as zero, null bytes as missing. -/
example : (match jsonSK.de (ascii "{\"ID\":1,\"Iteration\":null,\"CipherText\":null,\"Version\":3,\"Signature\":null}") with
    | .ok m => m.id == 1 && m.iteration == 0 && m.cipherText == none && m.version == 3
    | _ => false) = true := by decide +kernel

/-- With repeated names a null member does count. -/
example : (match jsonSK.de (ascii "{\"CipherText\":\"AQI=\",\"CipherText\":null}"), jsonSK.de (ascii "{\"CipherText\":\"AQI=\"}") with
    | .ok m, .ok m' => m.cipherText == none && m'.cipherText == some [1, 2]
    | _, _ => false) = true := by decide +kernel
end

end Verif
