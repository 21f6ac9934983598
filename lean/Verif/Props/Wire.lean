import Verif.Proofs.Proto
import Verif.Proofs.Keys
import Verif.Proofs.Toy
import Verif.Proofs.Encrypt
import Verif.Proofs.JsonTypes
import Verif.Spec.Std
/-
C24, C25, C26: messages survive the wire (serialize/proto.go and serialize/json.go).
-/
namespace Verif

/-- A version byte, a body and a fixed-size trailer are split apart again. -/
theorem splitThree_parts (v : UInt8) (body mac : Bytes) (k : Nat) (h : mac.length = k) :
    splitThree (some (v :: (body ++ mac))) 1 (((v :: (body ++ mac)).length : Int) - 1 - k) k =
      .ok ([v], body, mac) := by
  unfold splitThree
  have hl : (v :: (body ++ mac)).length = body.length + k + 1 := by simp [h]
  simp only
  rw [if_neg (by rw [hl]; omega), hl]
  have e1 : (((body.length + k + 1 : Nat) : Int) - 1 - k).toNat = body.length := by omega
  have e2 : ((1 : Int) + (((body.length + k + 1 : Nat) : Int) - 1 - k)).toNat = body.length + 1 := by omega
  rw [e1, e2]
  simp only [Int.toNat_natCast, Int.toNat_one, List.take_succ_cons, List.take_zero, List.drop_succ_cons, List.drop_zero,
    List.take_left, List.drop_left, Res.ok.injEq, Prod.mk.injEq, true_and]
  exact copyInto_self h

@[simp] theorem itoa_current : itoa (currentVersion : Int) = [51] := by decide

theorem checkVersion_ok {v : Int} : checkVersion v = .ok () ↔ 2 ≤ v ∧ v ≤ 3 := by
  unfold checkVersion
  have e1 : (unsupportedVersion : Int) = 1 := rfl
  have e3 : (currentVersion : Int) = 3 := rfl
  rw [e1, e3]
  split
  · simp; omega
  · split
    · simp; omega
    · simp; omega

@[simp] theorem checkVersion_three : checkVersion 3 = .ok () := rfl
@[simp] theorem checkVersion_current : checkVersion (currentVersion : Int) = .ok () := rfl

/-- Serialised structures of version 2 or 3 parse, as version 3. -/
theorem smDe_smSer' (st : SMStruct) (mac : Bytes) (d : UInt8) (hm : st.mac = some mac) (hl : mac.length = macLength)
    (hv : itoa st.version = [d]) (hv0 : st.version ≠ 0) (hd : highBits d = 3)
    (h1 : ∀ b ∈ st.ratchetKey, b.length < 2 ^ 64) (h4 : ∀ b ∈ st.cipherText, b.length < 2 ^ 64) :
    ∃ b, protoSM.ser st = .ok b ∧ protoSM.de b = .ok { st with version := 3 } := by
  obtain ⟨rk, c, pc, ct, v, mac'⟩ := st
  simp only at hm hv hv0 h1 h4
  subst hm
  let l : List PField := [.bytes 1 rk, .u32 2 c, .u32 3 pc, .bytes 4 ct]
  have hmar : smMarshal ⟨rk, c, pc, ct, v, some mac⟩ = l.flatMap PField.put := by
    simp [smMarshal, l, PField.put]
  have hun : unmarshal smSchema (l.flatMap PField.put) = .ok (l.flatMap PField.vals) := by
    apply unmarshal_put
    intro f hf
    simp only [l, List.mem_cons, List.not_mem_nil, or_false] at hf
    rcases hf with rfl | rfl | rfl | rfl
    · exact ⟨by omega, rfl, h1⟩
    · exact ⟨by omega, rfl⟩
    · exact ⟨by omega, rfl⟩
    · exact ⟨by omega, rfl, h4⟩
  refine ⟨d :: (l.flatMap PField.put ++ mac), ?_, ?_⟩
  · simp only [protoSM, smSer, hmar]
    rw [if_pos hv0, hv]
    simp
  · simp only [protoSM, smDe]
    rw [splitThree_parts _ _ _ _ hl]
    simp only [Res.bind_ok, hun, Res.map_ok, Res.ok.injEq]
    cases rk <;> cases ct <;>
      simp [l, PField.vals, getBytes, getU32, lastField, hd]

theorem smDe_smSer (st : SMStruct) (mac : Bytes) (hm : st.mac = some mac) (hl : mac.length = macLength)
    (hv : st.version = currentVersion) (h1 : ∀ b ∈ st.ratchetKey, b.length < 2 ^ 64)
    (h4 : ∀ b ∈ st.cipherText, b.length < 2 ^ 64) :
    ∃ b, protoSM.ser st = .ok b ∧ protoSM.de b = .ok st := by
  obtain ⟨b, hb, hd⟩ := smDe_smSer' st mac 51 hm hl (by rw [hv]; rfl) (by rw [hv]; decide) (by decide) h1 h4
  refine ⟨b, hb, ?_⟩
  rw [hd]
  cases st
  simp only at hv
  subst hv; rfl

/-! ### JSON -/

theorem inInt64_small {v : Int} (h0 : 0 ≤ v) (h : v ≤ 15) : InInt64 v := by
  refine ⟨?_, ?_⟩
  · have : (-2 ^ 63 : Int) ≤ 0 := by decide
    exact Int.le_trans this h0
  · have : (15 : Int) < 2 ^ 63 := by decide
    exact Int.lt_of_le_of_lt h this

theorem jsonSer_roundtrip {σ : Type} {wr : σ → JVal} {of : List (Bytes × JVal) → Option σ} {st : σ} (hp : (wr st).plain)
    (h : Reads wr of id st) (hd : (wr st).depth ≤ maxNestingDepth := by json_depth) : (jsonSer wr of).de (wr st).enc = .ok st := by
  simp only [jsonSer, unmarshal_marshal hp h]
  rfl

theorem jsonSM_roundtrip (st : SMStruct) (hv : InInt64 st.version) :
    ∃ b, jsonSM.ser st = .ok b ∧ jsonSM.de b = .ok st := by
  refine ⟨_, rfl, ?_⟩
  exact jsonSer_roundtrip st.json_plain (st.json_reads hv)

theorem jsonPK_roundtrip (st : PKStruct) (hv : InInt64 st.version) :
    ∃ b, jsonPK.ser st = .ok b ∧ jsonPK.de b = .ok st := by
  refine ⟨_, rfl, ?_⟩
  exact jsonSer_roundtrip st.json_plain (st.json_reads hv)

theorem jsonSK_roundtrip (st : SKStruct) : ∃ b, jsonSK.ser st = .ok b ∧ jsonSK.de b = .ok st := by
  refine ⟨_, rfl, ?_⟩
  exact jsonSer_roundtrip st.json_plain st.json_reads

theorem jsonSKD_roundtrip (st : SKDStruct) : ∃ b, jsonSKD.ser st = .ok b ∧ jsonSKD.de b = .ok st := by
  refine ⟨_, rfl, ?_⟩
  exact jsonSer_roundtrip st.json_plain st.json_reads

/-! ### Either serializer -/

theorem StdSM.ser_ok {S : Ser SMStruct} (h : StdSM S) (st : SMStruct) : ∃ b, S.ser st = .ok b := by
  rcases h with rfl | rfl
  · exact ⟨_, rfl⟩
  · exact ⟨_, rfl⟩

theorem StdSM.roundtrip {S : Ser SMStruct} (h : StdSM S) (st : SMStruct) (mac : Bytes) (hm : st.mac = some mac) (hl : mac.length = macLength)
    (hv : st.version = currentVersion) (h1 : ∀ b ∈ st.ratchetKey, b.length < 2 ^ 64)
    (h4 : ∀ b ∈ st.cipherText, b.length < 2 ^ 64) :
    ∃ b, S.ser st = .ok b ∧ S.de b = .ok st := by
  rcases h with rfl | rfl
  · exact smDe_smSer st mac hm hl hv h1 h4
  · exact jsonSM_roundtrip st (by rw [hv]; exact inInt64_small (by decide) (by decide))

/-- What `NewSignalMessage` returns. -/
theorem newSignalMessage_ok {C : Crypto} {S : Ser SMStruct} {version : Int} {counter prev : UInt32}
    {macKey : Bytes} {rk : Key32} {ct : Bytes} {sender receiver : Option Key32} {m : SignalMsg}
    (h : newSignalMessage C S version counter prev macKey rk ct sender receiver = .ok m) :
    ∃ body mac, S.ser ⟨some (serPub rk), counter, prev, some ct, 0, none⟩ = .ok body ∧
      getMac C version sender receiver macKey (itoa version ++ body) = .ok mac ∧
      2 ≤ version ∧ version ≤ 3 ∧
      m = ⟨⟨some (serPub rk), counter, prev, some ct, version, some mac⟩, rk⟩ := by
  unfold newSignalMessage at h
  simp only at h
  cases hs : S.ser ⟨some (serPub rk), counter, prev, some ct, 0, none⟩ with
  | err e => simp [hs] at h
  | panic => simp [hs] at h
  | ok body =>
    simp only [hs, Res.bind_ok] at h
    cases hg : getMac C version sender receiver macKey (itoa version ++ body) with
    | err e => simp [hg] at h
    | panic => simp [hg] at h
    | ok mac =>
      simp only [hg, Res.bind_ok, newSignalMessageFromStruct, checkVersion] at h
      split at h
      · simp at h
      · split at h
        · simp at h
        · simp only [Res.bind_ok, decodePoint_serPub, Res.map_ok, Res.ok.injEq] at h
          rename_i h1 h2
          simp only [unsupportedVersion, currentVersion] at h1 h2
          exact ⟨body, mac, rfl, hg, by omega, by omega, h.symm⟩

theorem getMac_length {C : Crypto} {v : Int} {a b : Option Key32} {k x mac : Bytes}
    (h : getMac C v a b k x = .ok mac) : mac.length = macLength := by
  unfold getMac at h
  split at h
  · split at h
    · simp only [trim, Arr.len] at h
      rw [if_neg (by decide)] at h
      simp only [Res.ok.injEq] at h
      rw [← h]; simp [Arr.len, macLength]
    · simp at h
  · simp only [trim, Arr.len] at h
    rw [if_neg (by decide)] at h
    simp only [Res.ok.injEq] at h
    rw [← h]; simp [Arr.len, macLength]

/-- **C24 (MAC).** The MAC of every message that `NewSignalMessage` returns verifies under the
MAC key, version and identities it was built with, whatever the serializer. -/
theorem C24_mac_verifies (C : Crypto) (S : Ser SMStruct) (version : Int) (counter prev : UInt32)
    (macKey : Bytes) (rk : Key32) (ct : Bytes) (sender receiver : Option Key32) (m : SignalMsg)
    (h : newSignalMessage C S version counter prev macKey rk ct sender receiver = .ok m) :
    m.verifyMac C S version sender receiver macKey = .ok () := by
  obtain ⟨body, mac, hs, hg, h1, h2, rfl⟩ := newSignalMessage_ok h
  unfold SignalMsg.verifyMac
  have hst : newSignalMessageFromStruct ⟨some (serPub rk), counter, prev, some ct, version, some mac⟩ =
      .ok ⟨⟨some (serPub rk), counter, prev, some ct, version, some mac⟩, rk⟩ := by
    simp [newSignalMessageFromStruct, checkVersion_ok.2 ⟨h1, h2⟩]
  simp only [hst, Res.bind_ok, hs, hg]
  simp

/-- **C24 (wire).** With either serializer, every version-3 message that `NewSignalMessage` returns serialises, and
parsing the bytes returns the same message: ratchet key, counter, previous counter, ciphertext,
version and MAC. -/
theorem C24_wire_roundtrip (C : Crypto) (S : Ser SMStruct) (hS : StdSM S) (counter prev : UInt32)
    (macKey : Bytes) (rk : Key32) (ct : Bytes) (sender receiver : Option Key32) (m : SignalMsg)
    (hct : ct.length < 2 ^ 64)
    (h : newSignalMessage C S currentVersion counter prev macKey rk ct sender receiver = .ok m) :
    ∃ b, S.ser m.struct = .ok b ∧ newSignalMessageFromBytes S b = .ok m := by
  obtain ⟨body, mac, hs, hg, h1, h2, rfl⟩ := newSignalMessage_ok h
  obtain ⟨b, hb, hd⟩ := hS.roundtrip ⟨some (serPub rk), counter, prev, some ct, currentVersion, some mac⟩ mac rfl
    (getMac_length hg) rfl (by simp) (by simpa using hct)
  refine ⟨b, hb, ?_⟩
  simp [newSignalMessageFromBytes, hd, newSignalMessageFromStruct, checkVersion, unsupportedVersion, currentVersion]

/-- **C24 fails for version 2**: the version is written as the ASCII digit '2' and read back
from the high four bits of that byte, so a message built with the supported version 2 always
comes back with version 3. (The library itself only creates version-3 sessions.) -/
theorem C24_version2_false (C : Crypto) (counter prev : UInt32) (macKey : Bytes) (rk : Key32) (ct : Bytes)
    (hct : ct.length < 2 ^ 64) :
    ∃ m b, newSignalMessage C protoSM 2 counter prev macKey rk ct none none = .ok m ∧ m.struct.version = 2 ∧
      protoSM.ser m.struct = .ok b ∧
      newSignalMessageFromBytes protoSM b = .ok ⟨{ m.struct with version := 3 }, rk⟩ := by
  let body := smMarshal ⟨some (serPub rk), counter, prev, some ct, 0, none⟩
  let mac := (C.hmac macKey (itoa 2 ++ body)).bytes.take 8
  obtain ⟨b, hb, hd⟩ := smDe_smSer' ⟨some (serPub rk), counter, prev, some ct, 2, some mac⟩ mac 50 rfl
    (by simp [mac, Arr.len, macLength]) (by show itoa 2 = _; decide) (by simp) (by decide) (by simp) (by simpa using hct)
  refine ⟨⟨⟨some (serPub rk), counter, prev, some ct, 2, some mac⟩, rk⟩, b, ?_, rfl, hb, ?_⟩
  · simp [newSignalMessage, protoSM, smSer, getMac, trim, Arr.len, macLength, newSignalMessageFromStruct, checkVersion,
      unsupportedVersion, currentVersion, body, mac]
  · simp only [newSignalMessageFromBytes, hd, Res.bind_ok, newSignalMessageFromStruct, checkVersion_three, Res.bind_ok, decodePoint_serPub, Res.map_ok]

/-- **C24 (JSON).** With the JSON serializer a message of either supported version comes back unchanged. -/
theorem C24_json_version2 (C : Crypto) (version : Int) (counter prev : UInt32)
    (macKey : Bytes) (rk : Key32) (ct : Bytes) (sender receiver : Option Key32) (m : SignalMsg)
    (h : newSignalMessage C jsonSM version counter prev macKey rk ct sender receiver = .ok m) :
    ∃ b, jsonSM.ser m.struct = .ok b ∧ newSignalMessageFromBytes jsonSM b = .ok m := by
  obtain ⟨body, mac, hs, hg, h1, h2, rfl⟩ := newSignalMessage_ok h
  obtain ⟨b, hb, hd⟩ := jsonSM_roundtrip ⟨some (serPub rk), counter, prev, some ct, version, some mac⟩
    (inInt64_small (by simp only; omega) (by simp only; omega))
  refine ⟨b, hb, ?_⟩
  simp [newSignalMessageFromBytes, hd, newSignalMessageFromStruct, checkVersion_ok.2 ⟨h1, h2⟩]

/-- The hypothesis of the C24 theorems is met: for every content the constructor succeeds. -/
theorem newSignalMessage_succeeds (C : Crypto) (S : Ser SMStruct) (hS : StdSM S) (counter prev : UInt32) (macKey : Bytes) (rk : Key32) (ct : Bytes)
    (sender receiver : Key32) :
    ∃ m, newSignalMessage C S currentVersion counter prev macKey rk ct (some sender) (some receiver) = .ok m := by
  obtain ⟨body, hb⟩ := hS.ser_ok ⟨some (serPub rk), counter, prev, some ct, 0, none⟩
  simp [newSignalMessage, hb, getMac, trim, Arr.len, macLength, newSignalMessageFromStruct, checkVersion,
      unsupportedVersion, currentVersion]

/-- **C24 (Encrypt).** With either serializer, a message returned by Encrypt on a version-3 session without pending
prekey serialises, parses back to itself, and its MAC verifies with the session's identities. -/
theorem C24_encrypt (E : Env) (hS : StdSM E.S) (s s' : SState) (pt : Bytes) (m : SignalMsg)
    (hv : s.version = currentVersion) (hpt : pt.length < 2 ^ 63)
    (h : encryptState E s pt = (.ok (.signal m), s')) :
    ∃ b sc, s.senderChain = some sc ∧ E.S.ser m.struct = .ok b ∧ newSignalMessageFromBytes E.S b = .ok m ∧
      m.struct.counter = sc.chainKey.index ∧ m.senderRatchetKey = sc.pair.pub ∧
      m.struct.previousCounter = s.previousCounter ∧
      m.verifyMac E.C E.S m.struct.version s.localIdentity s.remoteIdentity (sc.chainKey.msgKeys E.C).macKey = .ok () := by
  obtain ⟨sc, body, sm, hsc, hb, hm, -, hcase⟩ := encryptState_ok h
  obtain ⟨body', hb', hlen⟩ := encryptBody_ok E.C sc.chainKey pt
  rw [hb] at hb'; cases hb'
  rcases hcase with ⟨-, hcm⟩ | ⟨_, _, -, -, hcm⟩
  · cases hcm
    have hmac := C24_mac_verifies _ _ _ _ _ _ _ _ _ _ _ hm
    rw [hv] at hm
    obtain ⟨b, h1, h2⟩ := C24_wire_roundtrip _ _ hS _ _ _ _ _ _ _ _ (by omega) hm
    obtain ⟨_, _, -, -, -, -, rfl⟩ := newSignalMessage_ok hm
    rw [hv] at hmac
    exact ⟨b, sc, hsc, h1, h2, rfl, rfl, rfl, hmac⟩
  · simp at hcm

/-! ### C25: prekey messages -/

theorem pkDe_pkSer (st : PKStruct) (o : OptU32) (ho : st.preKeyId = some o)
    (hv : st.version = currentVersion) (h2 : ∀ b ∈ st.baseKey, b.length < 2 ^ 64)
    (h3 : ∀ b ∈ st.identityKey, b.length < 2 ^ 64) (h4 : ∀ b ∈ st.message, b.length < 2 ^ 64) :
    ∃ b, protoPK.ser st = .ok b ∧
      protoPK.de b = .ok { st with preKeyId := some (OptU32.new (if o.isEmpty then 0 else o.value)) } := by
  obtain ⟨rid, pid, sid, bk, ik, msg, v⟩ := st
  simp only at ho hv h2 h3 h4
  subst ho hv
  let l : List PField := (if o.isEmpty then [] else [.u32 1 o.value]) ++
    [.bytes 2 bk, .bytes 3 ik, .bytes 4 msg, .u32 5 rid, .u32 6 sid]
  have hun : unmarshal pkSchema (l.flatMap PField.put) = .ok (l.flatMap PField.vals) := by
    apply unmarshal_put
    intro f hf
    simp only [l, List.mem_append, List.mem_cons, List.not_mem_nil, or_false] at hf
    rcases hf with hf | rfl | rfl | rfl | rfl | rfl
    · split at hf
      · simp at hf
      · simp at hf; subst hf; exact ⟨by omega, rfl⟩
    · exact ⟨by omega, rfl, h2⟩
    · exact ⟨by omega, rfl, h3⟩
    · exact ⟨by omega, rfl, h4⟩
    · exact ⟨by omega, rfl⟩
    · exact ⟨by omega, rfl⟩
  refine ⟨51 :: l.flatMap PField.put, ?_, ?_⟩
  · simp only [protoPK, pkSer, itoa_current]
    cases he : o.isEmpty <;> simp [l, PField.put, he]
  · simp only [protoPK, pkDe, hun, Res.map_ok, Res.ok.injEq]
    cases he : o.isEmpty <;> cases bk <;> cases ik <;> cases msg <;>
      simp [l, PField.vals, getBytes, getU32, lastField, highBits, currentVersion, he]

/-- The two prekey message serializers agree with their parsers on messages with a prekey id. -/
theorem Std.pk_roundtrip {S : Ser SMStruct} {P : Ser PKStruct} (h : Std S P) (st : PKStruct) (id : UInt32)
    (ho : st.preKeyId = some (OptU32.new id)) (hv : st.version = currentVersion) (h2 : ∀ b ∈ st.baseKey, b.length < 2 ^ 64)
    (h3 : ∀ b ∈ st.identityKey, b.length < 2 ^ 64) (h4 : S = protoSM → ∀ b ∈ st.message, b.length < 2 ^ 64) :
    ∃ b, P.ser st = .ok b ∧ P.de b = .ok st := by
  rcases h with ⟨rfl, rfl⟩ | ⟨rfl, rfl⟩
  · obtain ⟨b, hb, hd⟩ := pkDe_pkSer st (OptU32.new id) ho hv h2 h3 (h4 rfl)
    refine ⟨b, hb, ?_⟩
    rw [hd]
    have e : { st with preKeyId := some (OptU32.new (if (OptU32.new id).isEmpty then 0 else (OptU32.new id).value)) } = st := by
      cases st; simp only at ho; subst ho; rfl
    rw [e]
  · exact jsonPK_roundtrip st (by rw [hv]; exact inInt64_small (by decide) (by decide))

/-- **C25.** With either serializer, every version-3 prekey message with a prekey id that `NewPreKeySignalMessage`
builds around a version-3 message survives the wire unchanged: registration id, prekey id, signed
prekey id, base key, identity key and the inner message. -/
theorem C25_wire_roundtrip_partial (S : Ser SMStruct) (P : Ser PKStruct) (hS : Std S P) (regId id spkId : UInt32) (baseKey idKey : Key32) (inner : SignalMsg)
    (mb : Bytes) (pm : PreKeyMsg) (hmb : S.ser inner.struct = .ok mb) (hlen : S = protoSM → mb.length < 2 ^ 64)
    (h : newPreKeyMessage S currentVersion regId (some (OptU32.new id)) spkId baseKey (some idKey) inner = .ok pm) :
    ∃ b, P.ser pm.struct = .ok b ∧ newPreKeyMessageFromBytes P S b = .ok pm := by
  simp only [newPreKeyMessage, hmb, Res.bind_ok] at h
  have hp : newPreKeyMessageFromStruct S pm.struct = .ok pm ∧
      pm.struct = ⟨regId, some (OptU32.new id), spkId, some (serPub baseKey), some (serPub idKey), some mb, currentVersion⟩ := by
    have h' := h
    simp only [newPreKeyMessageFromStruct, checkVersion_current, Res.bind_ok,
      decodePoint_serPub] at h'
    cases hm : newSignalMessageFromBytes S mb with
    | err e => simp [hm] at h'
    | panic => simp [hm] at h'
    | ok m =>
      simp only [hm, Res.map_ok, Res.ok.injEq] at h'
      subst h'
      exact ⟨h, rfl⟩
  obtain ⟨b, hb, hd⟩ := hS.pk_roundtrip pm.struct id (by rw [hp.2]) (by rw [hp.2]) (by rw [hp.2]; simp)
    (by rw [hp.2]; simp) (by intro e; rw [hp.2]; simpa using hlen e)
  refine ⟨b, hb, ?_⟩
  rw [newPreKeyMessageFromBytes, hd, Res.bind_ok, hp.1]

/-- The hypotheses of C25 are met: around every message made by `NewSignalMessage` a prekey
message can be built, and it carries exactly the given fields. -/
theorem C25_construct_partial (C : Crypto) (S : Ser SMStruct) (hS : StdSM S) (counter prev : UInt32) (macKey : Bytes) (rk : Key32) (ct : Bytes)
    (sender receiver : Option Key32) (m : SignalMsg) (hct : ct.length < 2 ^ 64)
    (h : newSignalMessage C S currentVersion counter prev macKey rk ct sender receiver = .ok m)
    (regId spkId : UInt32) (pid : Option OptU32) (baseKey idKey : Key32) :
    ∃ mb, S.ser m.struct = .ok mb ∧
      newPreKeyMessage S currentVersion regId pid spkId baseKey (some idKey) m =
        .ok ⟨⟨regId, pid, spkId, some (serPub baseKey), some (serPub idKey), some mb, currentVersion⟩, baseKey, idKey, m⟩ := by
  obtain ⟨mb, h1, h2⟩ := C24_wire_roundtrip C S hS counter prev macKey rk ct sender receiver m hct h
  refine ⟨mb, h1, ?_⟩
  simp [newPreKeyMessage, h1, newPreKeyMessageFromStruct, checkVersion_current, h2]

/-- **C25 is false without a one-time prekey.** With an empty optional id the message parses
back with a *present* id 0, and with a nil id serialising panics. -/
theorem C25_absent_id_false (regId spkId : UInt32) (baseKey idKey : Key32) (mb : Bytes) (hlen : mb.length < 2 ^ 64) :
    (∃ b st, protoPK.ser ⟨regId, some OptU32.empty, spkId, some (serPub baseKey), some (serPub idKey), some mb, currentVersion⟩ = .ok b ∧
      protoPK.de b = .ok st ∧ st.preKeyId = some ⟨0, false⟩) ∧
    protoPK.ser ⟨regId, none, spkId, some (serPub baseKey), some (serPub idKey), some mb, currentVersion⟩ = .panic := by
  obtain ⟨b, hb, hd⟩ := pkDe_pkSer ⟨regId, some OptU32.empty, spkId, some (serPub baseKey), some (serPub idKey), some mb,
    currentVersion⟩ OptU32.empty rfl rfl (by simp) (by simp) (by simpa using hlen)
  exact ⟨⟨b, _, hb, hd, rfl⟩, rfl⟩

/-- **C25 with the JSON serializer**, without restriction: whatever the optional prekey id (present, empty or nil), a prekey message
that `NewPreKeySignalMessage` builds survives the wire unchanged. -/
theorem C25_json (version : Int) (regId spkId : UInt32) (pid : Option OptU32) (baseKey idKey : Key32) (inner : SignalMsg) (pm : PreKeyMsg)
    (h : newPreKeyMessage jsonSM version regId pid spkId baseKey (some idKey) inner = .ok pm) :
    ∃ b, jsonPK.ser pm.struct = .ok b ∧ newPreKeyMessageFromBytes jsonPK jsonSM b = .ok pm ∧
      pm.struct.registrationId = regId ∧ pm.struct.preKeyId = pid ∧ pm.struct.signedPreKeyId = spkId ∧ pm.baseKey = baseKey ∧
      pm.identityKey = idKey ∧ pm.struct.version = version := by
  obtain ⟨mb, hmb⟩ : ∃ b, jsonSM.ser inner.struct = .ok b := ⟨_, rfl⟩
  simp only [newPreKeyMessage, hmb, Res.bind_ok] at h
  have h' := h
  simp only [newPreKeyMessageFromStruct] at h'
  cases hc : checkVersion version with
  | err e => simp [hc] at h'
  | panic => simp [hc] at h'
  | ok u =>
    simp only [hc, Res.bind_ok, decodePoint_serPub] at h'
    cases hm : newSignalMessageFromBytes jsonSM mb with
    | err e => simp [hm] at h'
    | panic => simp [hm] at h'
    | ok m =>
      simp only [hm, Res.map_ok, Res.ok.injEq] at h'
      subst h'
      have hv := checkVersion_ok.1 hc
      obtain ⟨b, hb, hd⟩ := jsonPK_roundtrip ⟨regId, pid, spkId, some (serPub baseKey), some (serPub idKey), some mb, version⟩
        (inInt64_small (by simp only; omega) (by simp only; omega))
      exact ⟨b, hb, by rw [newPreKeyMessageFromBytes, hd, Res.bind_ok, h], rfl, rfl, rfl, rfl, rfl, rfl⟩

/-! ### C26: group messages -/

@[simp] theorem itoa_current32 : itoa ((UInt32.ofNat currentVersion).toNat : Int) = [51] := by decide

theorem skDe_skSer (id it : UInt32) (ct : Option Bytes) (sig : Bytes) (hs : sig.length = 64)
    (hct : ∀ b ∈ ct, b.length < 2 ^ 64) :
    ∃ b, protoSK.ser ⟨id, it, ct, UInt32.ofNat currentVersion, some sig⟩ = .ok b ∧
      protoSK.de b = .ok ⟨id, it, ct, UInt32.ofNat currentVersion, some sig⟩ := by
  let l : List PField := [.u32 1 id, .u32 2 it, .bytes 3 ct]
  have hun : unmarshal skSchema (l.flatMap PField.put) = .ok (l.flatMap PField.vals) := by
    apply unmarshal_put
    intro f hf
    simp only [l, List.mem_cons, List.not_mem_nil, or_false] at hf
    rcases hf with rfl | rfl | rfl
    · exact ⟨by omega, rfl⟩
    · exact ⟨by omega, rfl⟩
    · exact ⟨by omega, rfl, hct⟩
  refine ⟨51 :: (l.flatMap PField.put ++ sig), ?_, ?_⟩
  · simp only [protoSK, skSer]
    rw [if_pos (by decide), itoa_current32]
    simp [l, PField.put]
  · simp only [protoSK, skDe]
    rw [show (64 : Int) = ((64 : Nat) : Int) from rfl, splitThree_parts _ _ _ _ hs]
    simp only [Res.bind_ok, hun, Res.map_ok, Res.ok.injEq]
    cases ct <;> simp [l, PField.vals, getBytes, getU32, lastField, highBits, currentVersion]

theorem StdSK.ser_ok {S : Ser SKStruct} (h : StdSK S) (st : SKStruct) : ∃ b, S.ser st = .ok b := by
  rcases h with rfl | rfl
  · exact ⟨_, rfl⟩
  · exact ⟨_, rfl⟩

theorem StdSK.roundtrip {S : Ser SKStruct} (h : StdSK S) (id it : UInt32) (ct : Option Bytes) (sig : Bytes) (hs : sig.length = 64)
    (hct : ∀ b ∈ ct, b.length < 2 ^ 64) :
    ∃ b, S.ser ⟨id, it, ct, UInt32.ofNat currentVersion, some sig⟩ = .ok b ∧
      S.de b = .ok ⟨id, it, ct, UInt32.ofNat currentVersion, some sig⟩ := by
  rcases h with rfl | rfl
  · exact skDe_skSer id it ct sig hs hct
  · exact jsonSK_roundtrip _

/-- **C26 (sender key message).** With either serializer, every message built by `NewSenderKeyMessage` survives the wire
unchanged, and the signature of the parsed message verifies under the signer's public key over
the parsed message's content. -/
theorem C26_sender_key_message (C : Crypto) (S : Ser SKStruct) (hS : StdSK S) (hsig : C.SigLaw) (keyId it : UInt32) (ct : Bytes) (k : Key32)
    (hk : IsClamped k) (rand : Arr 64) (hct : ct.length < 2 ^ 64) :
    ∃ m b content, newSenderKeyMessage C S keyId it ct (some k) rand = .ok m ∧
      m.keyId = keyId ∧ m.iteration = it ∧ m.ciphertext = some ct ∧
      m.signedSerialize S = .ok b ∧ newSenderKeyMessageFromBytes S b = .ok m ∧
      m.serialize S = .ok content ∧ C.verify (C.basePub k) content m.sig = true := by
  obtain ⟨content, hc⟩ : ∃ c, (⟨UInt32.ofNat currentVersion, keyId, it, some ct, none⟩ : SenderKeyMsg).serialize S
      = .ok c := hS.ser_ok _
  obtain ⟨b, hb, hd⟩ := hS.roundtrip keyId it (some ct) (C.sign k content rand).bytes (C.sign k content rand).len
    (by simpa using hct)
  refine ⟨⟨UInt32.ofNat currentVersion, keyId, it, some ct, some (C.sign k content rand).bytes⟩, b, content, ?_, rfl, rfl, rfl,
    hb, ?_, hc, ?_⟩
  · simp [newSenderKeyMessage, hc]
  · simp only [newSenderKeyMessageFromBytes, hd, Res.bind_ok, newSenderKeyMessageFromStruct]
    rw [checkVersion_ok.2 (by decide)]; rfl
  · simp [SenderKeyMsg.sig, hsig k content rand hk]

theorem proto_distribution (id it : UInt32) (ck : Bytes) (sk : Key32) (hck : ck.length < 2 ^ 64) :
    ∃ b, (newSKDM id it ck sk).serialize protoSKD = .ok b ∧
      newSKDMFromBytes protoSKD b = .ok { newSKDM id it ck sk with version := 3 } := by
  let l : List PField := [.u32 1 id, .u32 2 it, .bytes 3 (some ck), .bytes 4 (some (serPub sk))]
  have hun : unmarshal skdSchema (l.flatMap PField.put) = .ok (l.flatMap PField.vals) := by
    apply unmarshal_put
    intro f hf
    simp only [l, List.mem_cons, List.not_mem_nil, or_false] at hf
    rcases hf with rfl | rfl | rfl | rfl
    · exact ⟨by omega, rfl⟩
    · exact ⟨by omega, rfl⟩
    · exact ⟨by omega, rfl, by simpa using hck⟩
    · exact ⟨by omega, rfl, by simp⟩
  refine ⟨51 :: l.flatMap PField.put, ?_, ?_⟩
  · simp only [SKDMsg.serialize, protoSKD, skdSer, itoa_current32]
    simp [l, PField.put, newSKDM]
  · simp only [newSKDMFromBytes, protoSKD, skdDe, hun, Res.map_ok, Res.bind_ok, newSKDMFromStruct]
    rw [checkVersion_ok.2 (by decide)]
    simp [l, PField.vals, getBytes, getU32, lastField, highBits, newSKDM]

/-- **C26 (distribution message).** With either serializer, every distribution message survives the wire: id, iteration, chain
key and signing key.  (Its in-memory version field is 0 and becomes 3, the version it is
serialised with.) -/
theorem C26_distribution_message (S : Ser SKDStruct) (hS : StdSKD S) (id it : UInt32) (ck : Bytes) (sk : Key32) (hck : ck.length < 2 ^ 64) :
    ∃ b, (newSKDM id it ck sk).serialize S = .ok b ∧
      newSKDMFromBytes S b = .ok { newSKDM id it ck sk with version := 3 } := by
  rcases hS with rfl | rfl
  · exact proto_distribution id it ck sk hck
  · obtain ⟨b, hb, hd⟩ := jsonSKD_roundtrip ⟨id, it, some ck, some (serPub sk), UInt32.ofNat currentVersion⟩
    refine ⟨b, hb, ?_⟩
    simp only [newSKDMFromBytes, hd, Res.bind_ok, newSKDMFromStruct]
    rw [checkVersion_ok.2 (by decide)]
    simp [newSKDM, currentVersion]

example : ((newSKDM 7 3 [1, 2] (Toy.key 9)).serialize protoSKD).isOk = true := by decide

end Verif
