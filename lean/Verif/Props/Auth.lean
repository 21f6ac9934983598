import Verif.Spec.Mac
import Verif.Props.Wire
import Verif.Proofs.Records
import Verif.Proofs.ToyFlow
/-
C10 (what the MAC covers), C50 (attribution of decrypted messages).
-/
set_option linter.unusedSimpArgs false
namespace Verif
open Spec (macInput varint)

theorem encVarintAux_spec (fuel n : Nat) (hf : 0 < fuel) (h : n < 128 ^ fuel) : encVarintAux fuel n = varint n := by
  induction fuel generalizing n with
  | zero => omega
  | succ fuel ih =>
    rw [encVarintAux, varint]
    split
    · rfl
    · rename_i hn
      congr 1
      have h0 : 0 < fuel := by
        rcases Nat.eq_zero_or_pos fuel with rfl | h
        · simp at h; omega
        · exact h
      apply ih _ h0
      rw [Nat.div_lt_iff_lt_mul (by omega)]
      rwa [Nat.pow_succ] at h

theorem encVarint_spec {n : Nat} (h : n < 2 ^ 64) : encVarint n = varint n :=
  encVarintAux_spec 10 n (by omega) (Nat.lt_of_lt_of_le h (by decide))

/-- The bytes the code feeds to the MAC are the specified ones. -/
theorem macInput_eq (a b : Key32) (rk ct : Bytes) (c p : UInt32) (h1 : rk.length < 2 ^ 64) (h2 : ct.length < 2 ^ 64) :
    serPub a ++ serPub b ++ (itoa 3 ++ smMarshal ⟨some rk, c, p, some ct, 0, none⟩) = macInput a b rk ct c p := by
  have e1 : encVarint (1 * 8 + 2) = [0x0A] := by decide
  have e2 : encVarint (2 * 8) = [0x10] := by decide
  have e3 : encVarint (3 * 8) = [0x18] := by decide
  have e4 : encVarint (4 * 8 + 2) = [0x22] := by decide
  have e5 : itoa 3 = [51] := by decide
  simp only [smMarshal, putBytes, putU32, e1, e2, e3, e4, e5, encVarint_spec h1, encVarint_spec h2,
    encVarint_spec (Nat.lt_trans c.toNat_lt (by decide)), encVarint_spec (Nat.lt_trans p.toNat_lt (by decide)), macInput, serPub,
    djbType]
  simp

theorem smMarshal_inj {rk rk' ct ct' : Bytes} {c c' p p' : UInt32} (h1 : rk.length < 2 ^ 64) (h2 : ct.length < 2 ^ 64)
    (h1' : rk'.length < 2 ^ 64) (h2' : ct'.length < 2 ^ 64)
    (h : smMarshal ⟨some rk, c, p, some ct, 0, none⟩ = smMarshal ⟨some rk', c', p', some ct', 0, none⟩) :
    rk = rk' ∧ ct = ct' ∧ c = c' ∧ p = p' := by
  have hun : ∀ (rk ct : Bytes) (c p : UInt32), rk.length < 2 ^ 64 → ct.length < 2 ^ 64 →
      unmarshal smSchema (smMarshal ⟨some rk, c, p, some ct, 0, none⟩) =
        .ok [(1, .bytes rk), (2, .varint c.toNat), (3, .varint p.toNat), (4, .bytes ct)] := by
    intro rk ct c p h1 h2
    have := unmarshal_put smSchema [.bytes 1 (some rk), .u32 2 c, .u32 3 p, .bytes 4 (some ct)] (by
      intro f hf
      simp only [List.mem_cons, List.not_mem_nil, or_false] at hf
      rcases hf with rfl | rfl | rfl | rfl
      · exact ⟨by omega, rfl, by simpa using h1⟩
      · exact ⟨by omega, rfl⟩
      · exact ⟨by omega, rfl⟩
      · exact ⟨by omega, rfl, by simpa using h2⟩)
    simpa [smMarshal, PField.put, PField.vals] using this
  have := (hun rk ct c p h1 h2).symm.trans ((congrArg _ h).trans (hun rk' ct' c' p' h1' h2'))
  simp only [Res.ok.injEq, List.cons.injEq, Prod.mk.injEq, FieldVal.bytes.injEq, FieldVal.varint.injEq, true_and, and_true] at this
  exact ⟨this.1, this.2.2.2, UInt32.toNat_inj.1 this.2.1, UInt32.toNat_inj.1 this.2.2.1⟩

/-- **C10 (coverage).** Messages (or sessions) that differ in an identity key, the ratchet key, a
counter or the ciphertext present different inputs to the MAC. -/
theorem C10_mac_input_injective (a b a' b' : Key32) (rk ct rk' ct' : Bytes) (c p c' p' : UInt32)
    (h1 : rk.length < 2 ^ 64) (h2 : ct.length < 2 ^ 64) (h1' : rk'.length < 2 ^ 64) (h2' : ct'.length < 2 ^ 64)
    (h : macInput a b rk ct c p = macInput a' b' rk' ct' c' p') :
    a = a' ∧ b = b' ∧ rk = rk' ∧ ct = ct' ∧ c = c' ∧ p = p' := by
  rw [← macInput_eq a b rk ct c p h1 h2, ← macInput_eq a' b' rk' ct' c' p' h1' h2'] at h
  have e := List.append_inj h (by simp [serPub, Arr.len])
  have e1 := List.append_inj e.1 (by simp [serPub, Arr.len])
  have e2 := List.append_inj e.2 rfl
  have h3 := smMarshal_inj h1 h2 h1' h2' e2.2
  refine ⟨Arr.ext ?_, Arr.ext ?_, h3⟩
  · have := e1.1; simpa [serPub] using this
  · have := e1.2; simpa [serPub] using this

/-! ### The JSON serializer -/

set_option maxRecDepth 100000 in
theorem b64Char_spec (n : Nat) (h : n < 64) : b64Char n = Spec.digit64 n := by
  have : ∀ n < 64, b64Char n = Spec.digit64 n := by decide +kernel
  exact this n h

theorem b64Enc_spec (b : Bytes) : b64Enc b = Spec.base64 b := by
  induction b using b64Enc.induct with
  | case1 => rfl
  | case2 a =>
    have := a.toNat_lt
    simp only [b64Enc, Spec.base64, b64Char_spec _ (show a.toNat / 4 < 64 by omega), b64Char_spec _ (show a.toNat % 4 * 16 < 64 by omega)]
    rw [show a.toNat * 65536 / 262144 = a.toNat / 4 by omega, show a.toNat * 65536 / 4096 % 64 = a.toNat % 4 * 16 by omega]
    rfl
  | case3 a b =>
    have := a.toNat_lt
    have := b.toNat_lt
    simp only [b64Enc, Spec.base64]
    rw [b64Char_spec _ (show a.toNat / 4 < 64 by omega), b64Char_spec _ (show a.toNat % 4 * 16 + b.toNat / 16 < 64 by omega),
      b64Char_spec _ (show b.toNat % 16 * 4 < 64 by omega),
      show (a.toNat * 65536 + b.toNat * 256) / 262144 = a.toNat / 4 by omega,
      show (a.toNat * 65536 + b.toNat * 256) / 4096 % 64 = a.toNat % 4 * 16 + b.toNat / 16 by omega,
      show (a.toNat * 65536 + b.toNat * 256) / 64 % 64 = b.toNat % 16 * 4 by omega]
    rfl
  | case4 a b c s ih =>
    have := a.toNat_lt
    have := b.toNat_lt
    have := c.toNat_lt
    simp only [b64Enc, Spec.base64, ih]
    rw [b64Char_spec _ (show a.toNat / 4 < 64 by omega), b64Char_spec _ (show a.toNat % 4 * 16 + b.toNat / 16 < 64 by omega),
      b64Char_spec _ (show b.toNat % 16 * 4 + c.toNat / 64 < 64 by omega), b64Char_spec _ (show c.toNat % 64 < 64 by omega),
      show (a.toNat * 65536 + b.toNat * 256 + c.toNat) / 262144 = a.toNat / 4 by omega,
      show (a.toNat * 65536 + b.toNat * 256 + c.toNat) / 4096 % 64 = a.toNat % 4 * 16 + b.toNat / 16 by omega,
      show (a.toNat * 65536 + b.toNat * 256 + c.toNat) / 64 % 64 = b.toNat % 16 * 4 + c.toNat / 64 by omega,
      show (a.toNat * 65536 + b.toNat * 256 + c.toNat) % 64 = c.toNat % 64 by omega]
    rfl

theorem natDecAux_spec (fuel n : Nat) (acc : Bytes) (h : n < fuel) : natDecAux fuel n acc = Spec.decimal n ++ acc := by
  induction fuel generalizing n acc with
  | zero => omega
  | succ fuel ih =>
    rw [natDecAux, Spec.decimal]
    split
    · rename_i hn
      simp only [digitChar, List.cons_append, List.nil_append, List.cons.injEq, and_true]
      rw [Nat.mod_eq_of_lt hn]
    · rw [ih _ _ (by omega)]
      simp [digitChar]

theorem natDec_spec (n : Nat) : natDec n = Spec.decimal n := by
  rw [natDec, natDecAux_spec _ _ _ (by omega)]; simp

/-- The bytes the code feeds to the MAC with the JSON serializer are the specified ones. -/
theorem jsonMacInput_eq (a b : Key32) (rk ct : Bytes) (c p : UInt32) :
    serPub a ++ serPub b ++ (itoa 3 ++ (SMStruct.toJson ⟨some rk, c, p, some ct, 0, none⟩).enc) = Spec.jsonMacInput a b rk ct c p := by
  have e5 : itoa 3 = ascii "3" := by decide
  have e0 : itoa 0 = [48] := by decide
  simp only [SMStruct.toJson, jStruct, List.map, jBytes, jU32, jInt, JVal.enc, encMembers, b64Enc_spec, natDec_spec, e5, e0, Spec.jsonMacInput, serPub, djbType]
  rw [show ascii "{\"RatchetKey\":\"" = 123 :: 34 :: (ascii "RatchetKey" ++ [34, 58, 34]) by decide,
    show ascii "\",\"Counter\":" = 34 :: 44 :: 34 :: (ascii "Counter" ++ [34, 58]) by decide,
    show ascii ",\"PreviousCounter\":" = 44 :: 34 :: (ascii "PreviousCounter" ++ [34, 58]) by decide,
    show ascii ",\"CipherText\":\"" = 44 :: 34 :: (ascii "CipherText" ++ [34, 58, 34]) by decide,
    show ascii "\",\"Version\":0,\"Mac\":null}" = 34 :: 44 :: 34 :: (ascii "Version" ++ 34 :: 58 :: 48 :: 44 :: 34 :: (ascii "Mac" ++ 34 :: 58 :: (ascii "null" ++ [125]))) by decide]
  simp

/-- **C10 (coverage, JSON).** The same for the JSON serializer. -/
theorem C10_json_mac_input_injective (a b a' b' : Key32) (rk ct rk' ct' : Bytes) (c p c' p' : UInt32)
    (h : Spec.jsonMacInput a b rk ct c p = Spec.jsonMacInput a' b' rk' ct' c' p') :
    a = a' ∧ b = b' ∧ rk = rk' ∧ ct = ct' ∧ c = c' ∧ p = p' := by
  rw [← jsonMacInput_eq a b rk ct c p, ← jsonMacInput_eq a' b' rk' ct' c' p'] at h
  have e := List.append_inj h (by simp [serPub, Arr.len])
  have e1 := List.append_inj e.1 (by simp [serPub, Arr.len])
  have e2 := List.append_inj e.2 rfl
  have r1 := unmarshal_marshal (SMStruct.json_plain ⟨some rk, c, p, some ct, 0, none⟩) (SMStruct.json_reads ⟨some rk, c, p, some ct, 0, none⟩ (inInt64_small (Int.le_refl 0) (by decide : (0 : Int) ≤ 15)))
  have r2 := unmarshal_marshal (SMStruct.json_plain ⟨some rk', c', p', some ct', 0, none⟩) (SMStruct.json_reads ⟨some rk', c', p', some ct', 0, none⟩ (inInt64_small (Int.le_refl 0) (by decide : (0 : Int) ≤ 15)))
  rw [e2.2, r2] at r1
  simp only [id, Option.some.injEq, SMStruct.mk.injEq, and_true] at r1
  refine ⟨Arr.ext ?_, Arr.ext ?_, r1.1.symm, r1.2.2.2.symm, r1.2.1.symm, r1.2.2.1.symm⟩
  · have := e1.1; simpa [serPub] using this
  · have := e1.2; simpa [serPub] using this

/-! ### The check -/

/-- The content of a successful MAC check with any serializer. -/
theorem verifyMac_any {C : Crypto} {S : Ser SMStruct} {m : SignalMsg} {remote loc : Option Key32} {k : Bytes} {version : Int} (hv : version = 3)
    (hm : m.struct.version = 3) (h : m.verifyMac C S version remote loc k = .ok ()) :
    ∃ r l rk ct body, remote = some r ∧ loc = some l ∧ m.struct.ratchetKey = some rk ∧ m.struct.cipherText = some ct ∧
      S.ser ⟨some rk, m.struct.counter, m.struct.previousCounter, some ct, 0, none⟩ = .ok body ∧
      m.struct.mac.getD [] = ((C.hmac k (serPub r ++ serPub l ++ (itoa 3 ++ body))).bytes).take 8 := by
  subst hv
  unfold SignalMsg.verifyMac newSignalMessageFromStruct at h
  rw [hm] at h
  simp only [checkVersion_three, Res.bind_ok] at h
  cases hct : m.struct.cipherText with
  | none => simp [hct] at h
  | some ct =>
    cases hrk : m.struct.ratchetKey with
    | none => simp [hct, hrk] at h
    | some rk =>
      simp only [hct, hrk] at h
      cases hd : decodePoint rk with
      | err e => simp [hd] at h
      | panic => simp [hd] at h
      | ok key =>
        simp only [hd, Res.map_ok, Res.bind_ok] at h
        have hsm : { m.struct with version := 0, mac := none } =
            (⟨some rk, m.struct.counter, m.struct.previousCounter, some ct, 0, none⟩ : SMStruct) := by
          rw [← hrk, ← hct]
        cases hser : S.ser ⟨some rk, m.struct.counter, m.struct.previousCounter, some ct, 0, none⟩ with
        | err e => rw [hsm, hser] at h; simp at h
        | panic => rw [hsm, hser] at h; simp at h
        | ok body =>
          rw [hsm, hser] at h
          simp only [Res.bind_ok] at h
          cases remote with
          | none => simp [getMac] at h
          | some r =>
            cases loc with
            | none => simp [getMac] at h
            | some l =>
              refine ⟨r, l, rk, ct, body, rfl, rfl, rfl, rfl, hser, ?_⟩
              simp only [getMac, trim, Arr.len, macLength] at h
              rw [if_pos (by decide)] at h
              rw [if_neg (by decide)] at h
              simp only [Res.bind_ok] at h
              split at h
              · rename_i heq; exact heq.symm
              · simp at h

/-- A decryption that succeeds has checked the MAC under the identities of one of the record's states. -/
theorem decrypt_checks_mac (E : Env) (pos pos' : Nat) (r r' : Rec) (m : SignalMsg) (pt : Bytes) (mk : MsgKeys)
    (hv : m.struct.version = 3) (h : decryptWithRecord E pos r m = (.ok (pt, mk), r', pos')) :
    ∃ s ∈ r.state :: r.prevStates, ∃ remote loc rk ct body, s.version = 3 ∧
      s.remoteIdentity = some remote ∧ s.localIdentity = some loc ∧
      r'.state.remoteIdentity = some remote ∧ r'.state.localIdentity = some loc ∧
      m.struct.ratchetKey = some rk ∧ m.struct.cipherText = some ct ∧
      E.S.ser ⟨some rk, m.struct.counter, m.struct.previousCounter, some ct, 0, none⟩ = .ok body ∧
      m.struct.mac.getD [] = ((E.C.hmac mk.macKey (serPub remote ++ serPub loc ++ (itoa 3 ++ body))).bytes).take 8 := by
  obtain ⟨a, s, d, s', b, ha, hk, hd, hs', -, -⟩ := decryptWithRecord_ok h
  have hk' := decryptWithState_kept E d s m
  rw [hd] at hk'
  have hopen : ∃ mk', (openWith E s.remoteIdentity s.localIdentity m mk' = .ok (pt, mk)) ∧ m.struct.version = s.version := by
    rcases decryptWithState_cases E d s m with ⟨res, d', he, hno, -⟩ | ⟨s1, c, d', hc, -, hv1, hs1, he⟩
    · rw [he] at hd; cases hd; simp [Res.isOk] at hno
    · have hv2 : s1.version = s.version := by
        rcases hs1 with ⟨rfl, -⟩ | ⟨-, -, root, sc, p, r, -, -, -, -, rfl⟩ <;> rfl
      rw [he] at hd
      cases hr : c.recv E.C m.struct.counter with
      | mk res c' =>
        rw [hr] at hd
        cases res with
        | err e => simp at hd
        | panic => simp at hd
        | ok mk' =>
          simp only [Prod.mk.injEq] at hd
          exact ⟨mk', hd.1, hv1.trans hv2⟩
  obtain ⟨mk', ho, hver⟩ := hopen
  unfold openWith at ho
  cases hm : m.verifyMac E.C E.S m.struct.version s.remoteIdentity s.localIdentity mk'.macKey with
  | err e => simp [hm] at ho
  | panic => simp [hm] at ho
  | ok u =>
    simp only [hm, Res.bind_ok] at ho
    cases hb : decryptBody E.C mk' (m.struct.cipherText.getD []) with
    | err e => simp [hb] at ho
    | panic => simp [hb] at ho
    | ok pt' =>
      simp only [hb, Res.map_ok, Res.ok.injEq, Prod.mk.injEq] at ho
      obtain ⟨-, rfl⟩ := ho
      rw [hv] at hm
      obtain ⟨rem, loc, rk, ct, body, h1, h2, h3, h4, h6, h5⟩ := verifyMac_any rfl hv hm
      refine ⟨r.heap a, ?_, rem, loc, rk, ct, body, ?_, ?_, ?_, ?_, ?_, h3, h4, h6, h5⟩
      · rcases ha with rfl | ha
        · exact List.mem_cons_self
        · exact List.mem_cons_of_mem _ (List.mem_map_of_mem ha)
      · rw [← hk.version, ← hver, hv]
      · rw [← hk.remote, h1]
      · rw [← hk.loc, h2]
      · rw [hs', hk'.remote, h1]
      · rw [hs', hk'.loc, h2]

/-- **C10 (check).** A message of protocol version 3 is decrypted with a session record and the protobuf serializer only if its MAC is the
truncated HMAC, under the MAC key of the message keys used, of the specified input with the remote
and then the local identity of one of the record's states (the one that is current afterwards). -/
theorem C10_decrypt_checks_mac (E : Env) (hS : E.S = protoSM) (pos pos' : Nat) (r r' : Rec) (m : SignalMsg) (pt : Bytes) (mk : MsgKeys)
    (hv : m.struct.version = 3)
    (hl : (∀ b ∈ m.struct.ratchetKey, b.length < 2 ^ 64) ∧ ∀ b ∈ m.struct.cipherText, b.length < 2 ^ 64)
    (h : decryptWithRecord E pos r m = (.ok (pt, mk), r', pos')) :
    ∃ s ∈ r.state :: r.prevStates, ∃ remote loc rk ct, s.version = 3 ∧
      s.remoteIdentity = some remote ∧ s.localIdentity = some loc ∧
      r'.state.remoteIdentity = some remote ∧ r'.state.localIdentity = some loc ∧
      m.struct.ratchetKey = some rk ∧ m.struct.cipherText = some ct ∧
      m.struct.mac.getD [] = ((E.C.hmac mk.macKey (macInput remote loc rk ct m.struct.counter m.struct.previousCounter)).bytes).take 8 := by
  obtain ⟨s, hs, remote, loc, rk, ct, body, h1, h2, h3, h4, h5, h6, h7, h8, h9⟩ := decrypt_checks_mac E pos pos' r r' m pt mk hv h
  refine ⟨s, hs, remote, loc, rk, ct, h1, h2, h3, h4, h5, h6, h7, ?_⟩
  rw [hS] at h8
  simp only [protoSM, smSer, Res.ok.injEq] at h8
  have e := macInput_eq remote loc rk ct m.struct.counter m.struct.previousCounter (hl.1 _ (by simp [h6])) (hl.2 _ (by simp [h7]))
  have hb : body = smMarshal ⟨some rk, m.struct.counter, m.struct.previousCounter, some ct, 0, none⟩ := by
    rw [← h8]; simp
  rw [h9, hb, e]

/-- **C10 (check, JSON).** The same with the JSON serializer, for fields of any length. -/
theorem C10_json_decrypt_checks_mac (E : Env) (hS : E.S = jsonSM) (pos pos' : Nat) (r r' : Rec) (m : SignalMsg) (pt : Bytes) (mk : MsgKeys)
    (hv : m.struct.version = 3) (h : decryptWithRecord E pos r m = (.ok (pt, mk), r', pos')) :
    ∃ s ∈ r.state :: r.prevStates, ∃ remote loc rk ct, s.version = 3 ∧
      s.remoteIdentity = some remote ∧ s.localIdentity = some loc ∧
      r'.state.remoteIdentity = some remote ∧ r'.state.localIdentity = some loc ∧
      m.struct.ratchetKey = some rk ∧ m.struct.cipherText = some ct ∧
      m.struct.mac.getD [] = ((E.C.hmac mk.macKey (Spec.jsonMacInput remote loc rk ct m.struct.counter m.struct.previousCounter)).bytes).take 8 := by
  obtain ⟨s, hs, remote, loc, rk, ct, body, h1, h2, h3, h4, h5, h6, h7, h8, h9⟩ := decrypt_checks_mac E pos pos' r r' m pt mk hv h
  refine ⟨s, hs, remote, loc, rk, ct, h1, h2, h3, h4, h5, h6, h7, ?_⟩
  rw [hS] at h8
  simp only [jsonSM, jsonSer, Res.ok.injEq] at h8
  rw [h9, ← h8, jsonMacInput_eq]

/-- A version-2 message only decrypts under a version-2 state, whose MAC does not cover the identities; states
created by this library have version 3. -/
theorem C10_version_must_match (E : Env) (d : Option Key32) (s : SState) (m : SignalMsg) (x : Bytes × MsgKeys) (s' : SState) (b : Bool)
    (h : decryptWithState E d s m = (.ok x, s', b)) : m.struct.version = s.version := by
  apply Decidable.by_contra
  intro hne
  unfold decryptWithState at h
  cases hs : s.senderChain with
  | none => simp [hs] at h
  | some sc => simp [hs, hne] at h

section
open Toy
set_option maxRecDepth 100000
/-- Non-vacuity of C10: Bob's record after Alice's first message, decrypting her second. -/
example : bobEnv.S = protoSM ∧ msg2.message.struct.version = 3 ∧
    (decryptWithRecord bobEnv 1 (recOf bob1 alice) msg2.message).1.map (·.1) = .ok [1, 2, 3] ∧
    (msg2.message.struct.mac.getD []).length = 8 := ⟨rfl, by decide +kernel, by decide +kernel, by decide +kernel⟩
example : bobJ.S = jsonSM ∧ msgJ2.message.struct.version = 3 ∧
    (decryptWithRecord bobJ 1 (recOf bobJ1 alice) msgJ2.message).1.map (·.1) = .ok [1, 2, 3] := ⟨rfl, by decide +kernel, by decide +kernel⟩
example : macInput (key 1) (key 2) [1] [2] 3 4 ≠ macInput (key 1) (key 2) [1] [2] 3 5 := by
  intro h; exact absurd (C10_mac_input_injective _ _ _ _ _ _ _ _ _ _ _ _ (by decide) (by decide) (by decide) (by decide) h).2.2.2.2.2 (by decide)
example : Spec.jsonMacInput (key 1) (key 2) [1] [2] 3 4 ≠ Spec.jsonMacInput (key 1) (key 2) [1] [2, 0] 3 4 := by
  intro h; exact absurd (C10_json_mac_input_injective _ _ _ _ _ _ _ _ _ _ _ _ h).2.2.2.1 (by decide)
end

end Verif
