import Verif.Proofs.JsonOwn
import Verif.Proofs.JsonDen
import Verif.Props.Json
/-
C86: stored records and JSON messages may be reformatted.  C87: the loaders read JSON, all of it and nothing else.
-/
namespace Verif
open Spec

theorem serialize_text {r : Rec} {b : Bytes} (h : r.serialize = .ok b) : ∃ st, r.toStruct = .ok st ∧ b = st.toJson.enc := by
  rw [Rec.serialize] at h
  cases hst : r.toStruct with
  | err e => rw [hst] at h; cases h
  | panic => rw [hst] at h; cases h
  | ok st => rw [hst] at h; exact ⟨st, rfl, by simpa using h.symm⟩

theorem serialize_state_text {s : SState} {b : Bytes} (h : s.serialize = .ok b) : ∃ st, s.toStruct = .ok st ∧ b = st.toJson.enc := by
  rw [SState.serialize] at h
  cases hst : s.toStruct with
  | err e => rw [hst] at h; cases h
  | panic => rw [hst] at h; cases h
  | ok st => rw [hst] at h; exact ⟨st, rfl, by simpa using h.symm⟩

/-- **C86 (what is written).** The bytes of every record, state and JSON message are a JSON text (RFC 8259); each says what itself says (no two names in
an object differ only in case). -/
theorem C86_own_text :
    (∀ (r : Rec) b, r.serialize = .ok b → Reformatted b b) ∧ (∀ (s : SState) b, s.serialize = .ok b → Reformatted b b) ∧
    (∀ r : GRec, Reformatted r.serialize r.serialize) ∧ (∀ s : SKState, Reformatted s.serialize s.serialize) ∧
    (∀ (p : PreKey) b, p.serialize = .ok b → Reformatted b b) ∧ (∀ (p : SignedPreKey) b, p.serialize = .ok b → Reformatted b b) ∧
    (∀ (m : SMStruct) b, jsonSM.ser m = .ok b → Reformatted b b) ∧ (∀ (m : PKStruct) b, jsonPK.ser m = .ok b → Reformatted b b) ∧
    (∀ (m : SKStruct) b, jsonSK.ser m = .ok b → Reformatted b b) ∧ (∀ (m : SKDStruct) b, jsonSKD.ser m = .ok b → Reformatted b b) := by
  refine ⟨?_, ?_, ?_, ?_, ?_, ?_, ?_, ?_, ?_, ?_⟩
  · intro r b h; obtain ⟨st, -, rfl⟩ := serialize_text h; exact reformatted_self st.json_plain st.json_tidy
  · intro r b h; obtain ⟨st, -, rfl⟩ := serialize_state_text h; exact reformatted_self st.json_plain st.json_tidy
  · intro r; exact reformatted_self (senderKey_json_plain _) (senderKey_json_tidy _)
  · intro s; exact reformatted_self (SKStateStruct.json_plain _) (SKStateStruct.json_tidy _)
  · intro p b h; cases h; exact reformatted_self (PreKeyStruct.json_plain _) (PreKeyStruct.json_tidy _)
  · intro p b h; cases h; exact reformatted_self (SignedPreKeyStruct.json_plain _) (SignedPreKeyStruct.json_tidy _)
  · intro p b h; cases h; exact reformatted_self (SMStruct.json_plain _) (SMStruct.json_tidy _)
  · intro p b h; cases h; exact reformatted_self (PKStruct.json_plain _) (PKStruct.json_tidy _)
  · intro p b h; cases h; exact reformatted_self (SKStruct.json_plain _) (SKStruct.json_tidy _)
  · intro p b h; cases h; exact reformatted_self (SKDStruct.json_plain _) (SKDStruct.json_tidy _)

/-- **C86 (session record).** A stored session record whose text was reformatted loads as the record itself: the same current state and the same archived
states. -/
theorem C86_session_record (r : Rec) (hv : ∀ s ∈ r.state :: r.prevStates, InInt64 s.version) (b t : Bytes) (h : r.serialize = .ok b) (ht : Reformatted b t) :
    Rec.ofBytes t = Rec.ofBytes b ∧ ∃ r', Rec.ofBytes t = .ok r' ∧ r'.state = r.state ∧ r'.prevStates = r.prevStates := by
  obtain ⟨st, hst, rfl⟩ := serialize_text h
  obtain ⟨v1, v2⟩ := Rec.toStruct_versions hst hv
  have e : Rec.ofBytes t = Rec.ofStruct st := by
    rw [Rec.ofBytes, unmarshal_reformatted st.json_plain (st.json_like v1 v2) ht]
    exact Rec.ofRaw_raw st
  refine ⟨e.trans (Rec.ofBytes_enc st v1 v2).symm, Rec.ofStates r.state r.prevStates, e.trans (Rec.ofStruct_toStruct hst), ?_, ?_⟩
  · exact ofStates_state _ _
  · exact ofStates_prev _ _

/-- **C86 (session state).** -/
theorem C86_session_state (s : SState) (hv : InInt64 s.version) (b t : Bytes) (h : s.serialize = .ok b) (ht : Reformatted b t) : SState.ofBytes t = .ok s := by
  obtain ⟨st, hst, rfl⟩ := serialize_state_text h
  rw [SState.ofBytes, unmarshal_reformatted st.json_plain (st.json_like (by rw [version_of_toStruct hst]; exact hv)) ht]
  exact (SState.ofRaw_raw st).trans (SState.roundtrip hst)

/-- **C86 (sender key record).** -/
theorem C86_sender_key_record (r : GRec) (t : Bytes) (ht : Reformatted r.serialize t) :
    GRec.ofBytes t = GRec.ofBytes r.serialize ∧ ∃ r', GRec.ofBytes t = .ok r' := by
  have e : GRec.ofBytes t = GRec.ofBytes r.serialize := by
    rw [GRec.ofBytes, GRec.ofBytes, unmarshal_reformatted (senderKey_json_plain _) (senderKey_json_like _) ht, GRec.serialize,
      unmarshal_marshal (senderKey_json_plain _) (senderKey_json_reads _)]
  obtain ⟨r', h, -⟩ := C60_sender_key_bytes r
  exact ⟨e, r', e.trans h⟩

/-- **C86 (sender key state).** -/
theorem C86_sender_key_state (s : SKState) (t : Bytes) (ht : Reformatted s.serialize t) :
    SKState.ofBytes t = SKState.ofBytes s.serialize ∧ ∃ s', SKState.ofBytes t = .ok s' := by
  have e : SKState.ofBytes t = SKState.ofBytes s.serialize := by
    rw [SKState.ofBytes, SKState.ofBytes, unmarshal_reformatted (SKStateStruct.json_plain _) (SKStateStruct.json_like _) ht, SKState.serialize,
      unmarshal_marshal (SKStateStruct.json_plain _) (SKStateStruct.json_reads _) (SKStateStruct.json_shallow _)]
  obtain ⟨s', h, -⟩ := C60_sender_key_state_bytes s
  exact ⟨e, s', e.trans h⟩

/-- **C86 (prekey record).** -/
theorem C86_preKey (p : PreKey) (b t : Bytes) (h : p.serialize = .ok b) (ht : Reformatted b t) :
    PreKey.ofBytes t = PreKey.ofBytes b ∧ ∃ q, PreKey.ofBytes t = .ok q ∧ q.struct = p.struct := by
  cases h
  have e : PreKey.ofBytes t = .ok (PreKey.ofStruct p.struct) := by
    rw [PreKey.ofBytes, jsonPreKey, jsonSer]
    dsimp only
    rw [unmarshal_reformatted (PreKeyStruct.json_plain _) (PreKeyStruct.json_like _) ht]
    rfl
  refine ⟨e.trans ?_, _, e, rfl⟩
  simp only [PreKey.ofBytes, jsonPreKey, jsonSer, unmarshal_marshal (PreKeyStruct.json_plain _) (PreKeyStruct.json_reads _) (PreKeyStruct.json_shallow _)]
  rfl

/-- **C86 (signed prekey record).** -/
theorem C86_signedPreKey (p : SignedPreKey) (b t : Bytes) (h : p.serialize = .ok b) (ht : Reformatted b t) :
    SignedPreKey.ofBytes t = SignedPreKey.ofBytes b ∧ ∃ q, SignedPreKey.ofBytes t = .ok q := by
  cases h
  have e : SignedPreKey.ofBytes t = .ok (SignedPreKey.ofStruct p.struct) := by
    rw [SignedPreKey.ofBytes, jsonSignedPreKey, jsonSer]
    dsimp only
    rw [unmarshal_reformatted (SignedPreKeyStruct.json_plain _) (SignedPreKeyStruct.json_like _) ht]
    rfl
  refine ⟨e.trans ?_, _, e⟩
  simp only [SignedPreKey.ofBytes, jsonSignedPreKey, jsonSer, unmarshal_marshal (SignedPreKeyStruct.json_plain _) (SignedPreKeyStruct.json_reads _) (SignedPreKeyStruct.json_shallow _)]
  rfl

/-- **C86 (messages).** A JSON message whose text was reformatted on the way parses as the message that was sent (its version being a Go `int`). -/
theorem C86_messages (b t : Bytes) (ht : Reformatted b t) :
    (∀ m : SMStruct, InInt64 m.version → jsonSM.ser m = .ok b → jsonSM.de t = .ok m) ∧
    (∀ m : PKStruct, InInt64 m.version → jsonPK.ser m = .ok b → jsonPK.de t = .ok m) ∧
    (∀ m : SKStruct, jsonSK.ser m = .ok b → jsonSK.de t = .ok m) ∧
    (∀ m : SKDStruct, jsonSKD.ser m = .ok b → jsonSKD.de t = .ok m) := by
  refine ⟨?_, ?_, ?_, ?_⟩
  · intro m hv h; cases h
    simp only [jsonSM, jsonSer, unmarshal_reformatted (SMStruct.json_plain _) (SMStruct.json_like _ hv) ht]; rfl
  · intro m hv h; cases h
    simp only [jsonPK, jsonSer, unmarshal_reformatted (PKStruct.json_plain _) (PKStruct.json_like _ hv) ht]; rfl
  · intro m h; cases h
    simp only [jsonSK, jsonSer, unmarshal_reformatted (SKStruct.json_plain _) (SKStruct.json_like _) ht]; rfl
  · intro m h; cases h
    simp only [jsonSKD, jsonSer, unmarshal_reformatted (SKDStruct.json_plain _) (SKDStruct.json_like _) ht]; rfl

/-! ### C87 -/

/-- Every loader of JSON bytes agrees on the two texts. -/
def LoadedAlike (t t' : Bytes) : Prop :=
  Rec.ofBytes t = Rec.ofBytes t' ∧ SState.ofBytes t = SState.ofBytes t' ∧ GRec.ofBytes t = GRec.ofBytes t' ∧ SKState.ofBytes t = SKState.ofBytes t' ∧
  PreKey.ofBytes t = PreKey.ofBytes t' ∧ SignedPreKey.ofBytes t = SignedPreKey.ofBytes t' ∧
  jsonSM.de t = jsonSM.de t' ∧ jsonPK.de t = jsonPK.de t' ∧ jsonSK.de t = jsonSK.de t' ∧ jsonSKD.de t = jsonSKD.de t'

/-- Every loader of JSON bytes reports an error. -/
def AllRefuse (t : Bytes) : Prop :=
  Rec.ofBytes t = .err .badJson ∧ SState.ofBytes t = .err .badJson ∧ GRec.ofBytes t = .err .badJson ∧ SKState.ofBytes t = .err .badJson ∧
  PreKey.ofBytes t = .err .badJson ∧ SignedPreKey.ofBytes t = .err .badJson ∧
  jsonSM.de t = .err .badJson ∧ jsonPK.de t = .err .badJson ∧ jsonSK.de t = .err .badJson ∧ jsonSKD.de t = .err .badJson

theorem allRefuse_of {t : Bytes} (h : ∀ {α : Type} (dec : List (Bytes × JVal) → Option α), unmarshalJson dec t = none) : AllRefuse t := by
  refine ⟨?_, ?_, ?_, ?_, ?_, ?_, ?_, ?_, ?_, ?_⟩ <;>
    simp only [Rec.ofBytes, SState.ofBytes, GRec.ofBytes, SKState.ofBytes, PreKey.ofBytes, SignedPreKey.ofBytes, jsonPreKey, jsonSignedPreKey, jsonSM, jsonPK,
      jsonSK, jsonSKD, jsonSer, h, Res.map]

/-- **C87 (refused).** Bytes that are no JSON text at all are refused by every loader, with an error. -/
theorem C87_not_json (t : Bytes) (h : ¬ ∃ d, Writes d t) : AllRefuse t := allRefuse_of fun dec => unmarshal_not_json dec h

/-- **C87 (refused).** So is a JSON text of anything but an object or null. -/
theorem C87_not_object (t : Bytes) (d : Doc) (h : Writes d t) (h1 : ∀ ms, d ≠ .obj ms) (h2 : d ≠ .null) : AllRefuse t := by
  refine allRefuse_of fun dec => ?_
  obtain ⟨v, e, rfl⟩ := scan_writes h
  rw [unmarshalJson, e, Option.bind_some]
  split
  · rfl
  cases v with
  | null => exact absurd (by rw [JVal.den]) h2
  | obj m => exact absurd (by rw [JVal.den]) (h1 (denMembers m))
  | _ => rfl

/-- **C87 (refused).** So is a JSON text nested deeper than 10000. -/
theorem C87_too_deep (t : Bytes) (d : Doc) (h : Writes d t) (h1 : 10000 < d.depth) : AllRefuse t := by
  refine allRefuse_of fun dec => ?_
  obtain ⟨v, e, rfl⟩ := scan_writes h
  rw [unmarshalJson, e, Option.bind_some, if_pos (by rw [← den_depth]; exact h1)]

/-- **C87 (only the document counts).** Two texts of the same document — any document, in whatever way they are written — are loaded alike. -/
theorem C87_same_document (d : Doc) (t t' : Bytes) (h : Writes d t) (h' : Writes d t') : LoadedAlike t t' := by
  refine ⟨?_, ?_, ?_, ?_, ?_, ?_, ?_, ?_, ?_, ?_⟩
  · rw [Rec.ofBytes, Rec.ofBytes, unmarshal_same RawSession.ofJson_congr h h']
  · rw [SState.ofBytes, SState.ofBytes, unmarshal_same RawState.ofJson_congr h h']
  · rw [GRec.ofBytes, GRec.ofBytes, unmarshal_same rawSenderKey_congr h h']
  · rw [SKState.ofBytes, SKState.ofBytes, unmarshal_same RawSKState.ofJson_congr h h']
  · simp only [PreKey.ofBytes, jsonPreKey, jsonSer, unmarshal_same PreKeyStruct.ofJson_congr h h']
  · simp only [SignedPreKey.ofBytes, jsonSignedPreKey, jsonSer, unmarshal_same SignedPreKeyStruct.ofJson_congr h h']
  · simp only [jsonSM, jsonSer, unmarshal_same SMStruct.ofJson_congr h h']
  · simp only [jsonPK, jsonSer, unmarshal_same PKStruct.ofJson_congr h h']
  · simp only [jsonSK, jsonSer, unmarshal_same SKStruct.ofJson_congr h h']
  · simp only [jsonSKD, jsonSer, unmarshal_same SKDStruct.ofJson_congr h h']

/-- **C87 (one document).** A text is the text of at most one document. -/
theorem C87_one_document (d d' : Doc) (t : Bytes) (h : Writes d t) (h' : Writes d' t) : d = d' := by
  obtain ⟨v, e, rfl⟩ := scan_writes h
  obtain ⟨v', e', rfl⟩ := scan_writes h'
  rw [e] at e'; cases e'; rfl

section
set_option maxRecDepth 100000
/-- A group message and a reformatted text of it: white space, another order, other cases, escapes, an additional member. -/
def grpMsg : SKStruct := ⟨1, 2, some [1, 2], 3, none⟩
def grpText : Bytes := ascii "{ \"signature\" : null, \"note\": [1.5E+3,{},\"\\uD83D\\ude00\"], \"VERSION\":3,\n\"\\u0049d\":1, \"Iteration\":2, \"CipherText\":\"AQ\\u0049=\" } "
def grpDoc : Doc := .obj [(ascii "signature", .null), (ascii "note", .arr [.num (ascii "1.5E+3"), .obj [], .str (String.utf8EncodeChar '😀')]), (ascii "VERSION", .num (ascii "3")),
  (ascii "Id", .num (ascii "1")), (ascii "Iteration", .num (ascii "2")), (ascii "CipherText", .str (ascii "AQI="))]

theorem ws_of (w : Bytes) (h : w.all isWs = true) : Ws w := by
  intro c hc
  have := List.all_eq_true.1 h c hc
  simp only [isWs, Bool.or_eq_true, decide_eq_true_eq] at this
  rcases this with ((h | h) | h) | h <;> simp [h]

theorem str_of (s : Bytes) (h : s.all plainChar = true) : StrText s s := by
  have := strText_plain s h
  rwa [unquote_plain s h] at this

theorem num_of (n : Nat) : NumText (natDec n) := numText_lit ⟨n, .inl rfl⟩

theorem grp_writes : Writes grpDoc grpText := by
  refine ⟨[], _, ascii " ", ws_nil, ws_of _ (by decide), .obj
    (.memberMore (w := ascii " ") (w1 := ascii " ") (w2 := ascii " ") (w3 := []) (ws_of _ (by decide)) (ws_of _ (by decide)) (ws_of _ (by decide)) ws_nil
      (str_of (ascii "signature") (by decide +kernel)) .null
    (.memberMore (w := ascii " ") (w1 := []) (w2 := ascii " ") (w3 := []) (ws_of _ (by decide)) ws_nil (ws_of _ (by decide)) ws_nil
      (str_of (ascii "note") (by decide +kernel))
      (.arr (.elemMore (w := []) (w' := []) ws_nil ws_nil
        (.num ⟨[], ascii "1", ascii ".5", ascii "E+3", rfl, .inl rfl, .inr ⟨⟨by decide, by unfold Digit; decide⟩, by decide⟩,
          .inr ⟨ascii "5", ⟨by decide, by unfold Digit; decide⟩, rfl⟩,
          .inr ⟨ascii "E", ascii "+", ascii "3", .inr rfl, .inr (.inl rfl), ⟨by decide, by unfold Digit; decide⟩, rfl⟩⟩)
        (.elemMore (w := []) (w' := []) ws_nil ws_nil (.noMembers (w := []) ws_nil)
        (.elem (w := []) (w' := []) ws_nil ws_nil (.str (.pair (m := 0xD83D) (n := 0xDE00) ⟨13, 8, 3, 13, .inr rfl, .inl rfl, .inl rfl, .inr rfl, rfl⟩
          ⟨13, 14, 0, 0, .inl rfl, .inl rfl, .inl rfl, .inl rfl, rfl⟩ (by unfold High; decide) (by unfold Low; decide) .nil))))))
    (.memberMore (w := ascii " ") (w1 := []) (w2 := []) (w3 := []) (ws_of _ (by decide)) ws_nil ws_nil ws_nil
      (str_of (ascii "VERSION") (by decide +kernel)) (.num (num_of 3))
    (.memberMore (w := ascii "\n") (w1 := []) (w2 := []) (w3 := []) (ws_of _ (by decide)) ws_nil ws_nil ws_nil
      (.unicode (n := 73) ⟨0, 0, 4, 9, .inl rfl, .inl rfl, .inl rfl, .inl rfl, rfl⟩ (by unfold High; decide) (by unfold Low; decide) (str_of (ascii "d") (by decide +kernel))) (.num (num_of 1))
    (.memberMore (w := ascii " ") (w1 := []) (w2 := []) (w3 := []) (ws_of _ (by decide)) ws_nil ws_nil ws_nil
      (str_of (ascii "Iteration") (by decide +kernel)) (.num (num_of 2))
    (.member (w := ascii " ") (w1 := []) (w2 := []) (w3 := ascii " ") (ws_of _ (by decide)) ws_nil ws_nil (ws_of _ (by decide))
      (str_of (ascii "CipherText") (by decide +kernel))
      (.str (.raw 65 (by decide) (by decide) (by decide) (.raw 81 (by decide) (by decide) (by decide)
        (.unicode (n := 73) ⟨0, 0, 4, 9, .inl rfl, .inl rfl, .inl rfl, .inl rfl, rfl⟩ (by unfold High; decide) (by unfold Low; decide) (str_of (ascii "=") (by decide +kernel)))))))))))), ?_⟩
  decide +kernel

/-- Non-vacuity of C86: the text is a reformatted one, and the message is read from it. -/
theorem grp_reformatted : ∃ b, jsonSK.ser grpMsg = .ok b ∧ b ≠ grpText ∧ Reformatted b grpText := by
  refine ⟨_, rfl, by decide +kernel, _, _, writes_enc _ (SKStruct.json_plain grpMsg), grp_writes, ?_⟩
  simp only [SKStruct.toJson, jStruct, List.map_cons, List.map_nil, JVal.den, denMembers, Doc.Says, grpDoc]
  simp only [SaysMembers]
  refine ⟨⟨_, rfl, ⟨_, rfl, ?_⟩, ⟨_, rfl, ?_⟩, ⟨_, rfl, ?_⟩, ⟨_, rfl, ?_⟩, ⟨_, rfl, ?_⟩, trivial⟩, by unfold Doc.Shallow; decide +kernel⟩ <;> simp only [jU32, jBytes, JVal.den, Doc.Says, grpMsg] <;> rfl
example : (jsonSK.de grpText).map (fun m => (m.id, m.iteration, m.cipherText, m.version, m.signature)) = .ok (1, 2, some [1, 2], 3, none) := by
  obtain ⟨b, h1, -, h2⟩ := grp_reformatted
  rw [(C86_messages b grpText h2).2.2.1 grpMsg h1]; rfl

/-- Non-vacuity of C87: there are bytes that are no JSON text (a trailing comma). -/
example : ¬ ∃ d, Writes d (ascii "{\"ID\":1,}") := by
  rintro ⟨d, h⟩
  obtain ⟨v, e, -⟩ := scan_writes h
  have : (scan (ascii "{\"ID\":1,}")).isNone = true := by decide +kernel
  rw [e] at this
  cases this

/-- Arrays in arrays. -/
def nest : Nat → Doc
  | 0 => .arr []
  | n + 1 => .arr [nest n]
def nestText : Nat → Bytes
  | 0 => ascii "[]"
  | n + 1 => 91 :: (nestText n ++ [93])

theorem nest_text : ∀ n, Text (.value (nest n)) (nestText n)
  | 0 => .noElems (w := []) ws_nil
  | n + 1 => by
    have := Text.arr (.elem (w := []) (w' := []) ws_nil ws_nil (nest_text n))
    simpa [nest, nestText] using this
theorem nest_depth : ∀ n, (nest n).depth = n + 1
  | 0 => by simp [nest, Doc.depth, elemsDepth]
  | n + 1 => by simp [nest, Doc.depth, elemsDepth, nest_depth n]

/-- Non-vacuity of C87_too_deep. -/
example : Writes (nest 10000) (nestText 10000) ∧ 10000 < (nest 10000).depth :=
  ⟨⟨[], _, [], ws_nil, ws_nil, nest_text _, by simp⟩, by rw [nest_depth]; omega⟩
end

end Verif
