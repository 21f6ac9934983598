import Verif.Props.Wire
/-
C27: parsing hostile bytes.
-/
namespace Verif

theorem decodePoint_panic {b : Bytes} : decodePoint b = .panic ↔ b = [] := by
  cases b with
  | nil => simp [decodePoint]
  | cons t r => simp only [decodePoint]; split <;> simp

theorem unmarshal_no_panic (schema : Nat → Option Kind) (b : Bytes) : unmarshal schema b ≠ .panic := by
  unfold unmarshal; split <;> simp

theorem splitThree_no_panic (b : Option Bytes) (x y z : Int) : splitThree b x y z ≠ .panic := by
  unfold splitThree
  split
  · simp
  · split <;> simp

theorem splitThree_fst {b : Bytes} {y z : Int} {p : Bytes × Bytes × Bytes}
    (h : splitThree (some b) 1 y z = .ok p) : p.1 ≠ [] := by
  unfold splitThree at h
  simp only at h
  split at h
  · simp at h
  · simp only [Res.ok.injEq] at h
    subst h
    intro hn
    simp at hn
    subst hn
    simp at *
    omega

theorem smDe_no_panic (b : Bytes) : protoSM.de b ≠ .panic := by
  simp only [protoSM, smDe]
  cases hs : splitThree (some b) 1 ((b.length : Int) - 1 - macLength) macLength with
  | err e => simp
  | panic => exact absurd hs (splitThree_no_panic _ _ _ _)
  | ok p =>
    have h1 := splitThree_fst hs
    obtain ⟨p0, p1, p2⟩ := p
    simp only [Res.bind_ok]
    cases p0 with
    | nil => simp at h1
    | cons v _ =>
      simp only
      cases hu : unmarshal smSchema p1 with
      | err e => simp
      | panic => exact absurd hu (unmarshal_no_panic _ _)
      | ok fs => simp

theorem skDe_no_panic (b : Bytes) : protoSK.de b ≠ .panic := by
  simp only [protoSK, skDe]
  cases hs : splitThree (some b) 1 ((b.length : Int) - 1 - 64) 64 with
  | err e => simp
  | panic => exact absurd hs (splitThree_no_panic _ _ _ _)
  | ok p =>
    have h1 := splitThree_fst hs
    obtain ⟨p0, p1, p2⟩ := p
    simp only [Res.bind_ok]
    cases p0 with
    | nil => simp at h1
    | cons v _ =>
      simp only
      cases hu : unmarshal skSchema p1 with
      | err e => simp
      | panic => exact absurd hu (unmarshal_no_panic _ _)
      | ok fs => simp

theorem jsonSer_no_panic {σ : Type} (wr : σ → JVal) (of : List (Bytes × JVal) → Option σ) (b : Bytes) : (jsonSer wr of).de b ≠ .panic := by
  simp only [jsonSer]; split <;> simp

theorem StdSM.de_no_panic {S : Ser SMStruct} (h : StdSM S) (b : Bytes) : S.de b ≠ .panic := by
  rcases h with rfl | rfl
  · exact smDe_no_panic b
  · exact jsonSer_no_panic _ _ b

theorem StdSK.de_no_panic {S : Ser SKStruct} (h : StdSK S) (b : Bytes) : S.de b ≠ .panic := by
  rcases h with rfl | rfl
  · exact skDe_no_panic b
  · exact jsonSer_no_panic _ _ b

theorem protoPK_panic (b : Bytes) : protoPK.de b = .panic ↔ b = [] := by
  cases b with
  | nil => simp [protoPK, pkDe]
  | cons v b =>
    simp only [protoPK, pkDe, reduceCtorEq, iff_false]
    cases hu : unmarshal pkSchema b with
    | err e => simp
    | panic => exact absurd hu (unmarshal_no_panic _ _)
    | ok fs => simp

theorem Std.pk_panic {S : Ser SMStruct} {P : Ser PKStruct} (h : Std S P) (b : Bytes) : P.de b = .panic ↔ P = protoPK ∧ b = [] := by
  rcases h with ⟨rfl, rfl⟩ | ⟨rfl, rfl⟩
  · simp [protoPK_panic]
  · constructor
    · intro hp; exact absurd hp (jsonSer_no_panic _ _ b)
    · rintro ⟨hp, rfl⟩; rw [hp, protoPK_panic]

theorem protoSKD_panic (b : Bytes) : protoSKD.de b = .panic ↔ b = [] := by
  cases b with
  | nil => simp [protoSKD, skdDe]
  | cons v b =>
    simp only [protoSKD, skdDe, reduceCtorEq, iff_false]
    cases hu : unmarshal skdSchema b with
    | err e => simp
    | panic => exact absurd hu (unmarshal_no_panic _ _)
    | ok fs => simp

theorem StdSKD.panic {S : Ser SKDStruct} (h : StdSKD S) (b : Bytes) : S.de b = .panic ↔ S = protoSKD ∧ b = [] := by
  rcases h with rfl | rfl
  · simp [protoSKD_panic]
  · constructor
    · intro hp; exact absurd hp (jsonSer_no_panic _ _ b)
    · rintro ⟨hp, rfl⟩; rw [hp, protoSKD_panic]

theorem checkVersion_no_panic (v : Int) : checkVersion v ≠ .panic := by
  unfold checkVersion; split <;> (try split) <;> simp

/-- When building a signal message from a structure panics. -/
theorem newSignalMessageFromStruct_panic (st : SMStruct) :
    newSignalMessageFromStruct st = .panic ↔
      checkVersion st.version = .ok () ∧ st.cipherText ≠ none ∧ st.ratchetKey = some [] := by
  unfold newSignalMessageFromStruct
  cases hc : checkVersion st.version with
  | err e => simp
  | panic => exact absurd hc (checkVersion_no_panic _)
  | ok u =>
    simp only [Res.bind_ok]
    cases h1 : st.cipherText with
    | none => simp
    | some ct =>
      cases h2 : st.ratchetKey with
      | none => simp
      | some rk =>
        simp only
        cases hd : decodePoint rk with
        | err e =>
          have : rk ≠ [] := fun h => by rw [decodePoint_panic.2 h] at hd; simp at hd
          simpa using this
        | ok k =>
          have : rk ≠ [] := fun h => by rw [decodePoint_panic.2 h] at hd; simp at hd
          simpa using this
        | panic => simpa using decodePoint_panic.1 hd

/-- **C27, partial (signal message).** With either serializer, parsing a byte string as a signal message panics exactly when it
decodes to a structure of a supported version with a ciphertext and an empty (but present) ratchet key.
Missing: the claim that it never panics, which is false (below). -/
theorem C27_signal_partial (S : Ser SMStruct) (hS : StdSM S) (b : Bytes) :
    newSignalMessageFromBytes S b = .panic ↔
      ∃ st, S.de b = .ok st ∧ 2 ≤ st.version ∧ st.version ≤ 3 ∧ st.cipherText ≠ none ∧ st.ratchetKey = some [] := by
  unfold newSignalMessageFromBytes
  cases hd : S.de b with
  | err e => simp
  | panic => exact absurd hd (hS.de_no_panic b)
  | ok st =>
    simp only [Res.bind_ok, newSignalMessageFromStruct_panic, checkVersion_ok]
    simp [and_assoc]

/-- **C27 (sender key message).** With either serializer, parsing any byte string as a sender key message returns a message or
an error, never a panic. -/
theorem C27_sender_key_partial (S : Ser SKStruct) (hS : StdSK S) (b : Bytes) : newSenderKeyMessageFromBytes S b ≠ .panic := by
  unfold newSenderKeyMessageFromBytes
  cases hd : S.de b with
  | err e => simp
  | panic => exact absurd hd (hS.de_no_panic b)
  | ok st =>
    simp only [Res.bind_ok, newSenderKeyMessageFromStruct]
    cases hc : checkVersion st.version.toNat with
    | err e => simp
    | panic => exact absurd hc (checkVersion_no_panic _)
    | ok u => simp only [Res.bind_ok]; split <;> simp

/-- **C27, partial (prekey message).** Parsing a prekey message panics exactly for the empty input (protobuf only) and for
inputs of a supported version whose base key, identity key or inner message's ratchet key is present but empty. -/
theorem C27_prekey_partial (S : Ser SMStruct) (P : Ser PKStruct) (hS : Std S P) (b : Bytes) :
    newPreKeyMessageFromBytes P S b = .panic ↔
      (P = protoPK ∧ b = []) ∨ ∃ st bk ik msg, P.de b = .ok st ∧ 2 ≤ st.version ∧ st.version ≤ 3 ∧
        st.baseKey = some bk ∧ st.identityKey = some ik ∧ st.message = some msg ∧
        (bk = [] ∨ (∃ k, decodePoint bk = .ok k) ∧
          (ik = [] ∨ (∃ k, decodePoint ik = .ok k) ∧ newSignalMessageFromBytes S msg = .panic)) := by
  unfold newPreKeyMessageFromBytes
  cases hd : P.de b with
  | err e =>
    have : ¬ (P = protoPK ∧ b = []) := fun h => by rw [(hS.pk_panic b).2 h] at hd; cases hd
    simp [this]
  | panic => simp [(hS.pk_panic b).1 hd]
  | ok st =>
    have hne : ¬ (P = protoPK ∧ b = []) := fun h => by rw [(hS.pk_panic b).2 h] at hd; cases hd
    simp only [Res.bind_ok, newPreKeyMessageFromStruct, hne, false_or]
    cases hc : checkVersion st.version with
    | panic => exact absurd hc (checkVersion_no_panic _)
    | err e =>
      simp only [Res.bind_err, reduceCtorEq, false_iff]
      rintro ⟨st', _, _, _, h, h1, h2, -⟩
      cases h
      rw [checkVersion_ok.2 ⟨h1, h2⟩] at hc
      simp at hc
    | ok u =>
      have hv := checkVersion_ok.1 hc
      simp only [Res.bind_ok]
      cases h1 : st.baseKey with
      | none => simp [h1]
      | some bk =>
        cases h2 : st.identityKey with
        | none => simp [h2]
        | some ik =>
          cases h3 : st.message with
          | none => simp [h3]
          | some msg =>
            simp only [Res.ok.injEq]
            have key : ((decodePoint bk).bind fun base => (decodePoint ik).bind fun idk =>
                (newSignalMessageFromBytes S msg).map fun m => (⟨st, base, idk, m⟩ : PreKeyMsg)) = .panic ↔
              (bk = [] ∨ (∃ k, decodePoint bk = .ok k) ∧
                (ik = [] ∨ (∃ k, decodePoint ik = .ok k) ∧ newSignalMessageFromBytes S msg = .panic)) := by
              cases hb : decodePoint bk with
              | err e =>
                have : bk ≠ [] := fun h => by rw [decodePoint_panic.2 h] at hb; simp at hb
                simp [this]
              | panic => simp [decodePoint_panic.1 hb]
              | ok k =>
                have : bk ≠ [] := fun h => by rw [decodePoint_panic.2 h] at hb; simp at hb
                simp only [Res.bind_ok, this, false_or, Res.ok.injEq, exists_eq', true_and]
                cases hi : decodePoint ik with
                | err e =>
                  have : ik ≠ [] := fun h => by rw [decodePoint_panic.2 h] at hi; simp at hi
                  simp [this]
                | panic => simp [decodePoint_panic.1 hi]
                | ok k' =>
                  have : ik ≠ [] := fun h => by rw [decodePoint_panic.2 h] at hi; simp at hi
                  simp only [Res.bind_ok, this, false_or, Res.ok.injEq, exists_eq', true_and]
                  cases newSignalMessageFromBytes S msg <;> simp
            rw [key]
            constructor
            · intro h
              exact ⟨st, bk, ik, msg, rfl, hv.1, hv.2, h1, h2, h3, h⟩
            · rintro ⟨st', bk', ik', msg', rfl, -, -, e1, e2, e3, h⟩
              rw [h1] at e1; rw [h2] at e2; rw [h3] at e3
              cases e1; cases e2; cases e3
              exact h

/-- **C27, partial (distribution message).** Parsing panics exactly for the empty input (protobuf only) and for inputs of
a supported version with a chain key whose signing key is present but empty. -/
theorem C27_distribution_partial (S : Ser SKDStruct) (hS : StdSKD S) (b : Bytes) :
    newSKDMFromBytes S b = .panic ↔
      (S = protoSKD ∧ b = []) ∨ ∃ st, S.de b = .ok st ∧ 2 ≤ st.version.toNat ∧ st.version.toNat ≤ 3 ∧
        st.chainKey ≠ none ∧ st.signingKey = some [] := by
  unfold newSKDMFromBytes
  cases hd : S.de b with
  | err e =>
    have : ¬ (S = protoSKD ∧ b = []) := fun h => by rw [(hS.panic b).2 h] at hd; cases hd
    simp [this]
  | panic => simp [(hS.panic b).1 hd]
  | ok st =>
    have hne : ¬ (S = protoSKD ∧ b = []) := fun h => by rw [(hS.panic b).2 h] at hd; cases hd
    simp only [hne, false_or, Res.bind_ok, newSKDMFromStruct, Res.ok.injEq, exists_eq_left']
    cases hc : checkVersion st.version.toNat with
    | panic => exact absurd hc (checkVersion_no_panic _)
    | err e =>
      simp only [Res.bind_err, reduceCtorEq, false_iff]
      rintro ⟨h1, h2, -⟩
      rw [checkVersion_ok.2 ⟨by omega, by omega⟩] at hc
      simp at hc
    | ok u =>
      have hv := checkVersion_ok.1 hc
      simp only [Res.bind_ok]
      cases h1 : st.signingKey with
      | none => simp
      | some sk =>
        cases h2 : st.chainKey with
        | none => simp
        | some ck =>
          simp only
          cases hs : decodePoint sk with
          | err e =>
            have : sk ≠ [] := fun h => by rw [decodePoint_panic.2 h] at hs; simp at hs
            simp [this]
          | ok k =>
            have : sk ≠ [] := fun h => by rw [decodePoint_panic.2 h] at hs; simp at hs
            simp [this]
          | panic =>
            simp [decodePoint_panic.1 hs]
            omega

/-- **C27 is false.** A 13-byte signal message with an empty ratchet key, the empty prekey
message, a prekey message with an empty base key, the empty distribution message and one with an empty
signing key crash the parser. -/
theorem C27_false :
    newSignalMessageFromBytes protoSM ([0x33, 0x0A, 0x00, 0x22, 0x00] ++ List.replicate 8 0) = .panic ∧
    newPreKeyMessageFromBytes protoPK protoSM [] = .panic ∧
    newPreKeyMessageFromBytes protoPK protoSM [0x33, 0x12, 0x00, 0x1A, 0x00, 0x22, 0x00] = .panic ∧
    newSKDMFromBytes protoSKD [] = .panic ∧
    newSKDMFromBytes protoSKD [0x33, 0x1A, 0x00, 0x22, 0x00] = .panic := by
  decide

/-- **C27 is false for JSON too**: the objects `{"CipherText":"","RatchetKey":"","Version":3}` and
`{"ChainKey":"","SigningKey":"","Version":3}` crash the parser. -/
theorem C27_json_false :
    newSignalMessageFromBytes jsonSM (ascii "{\"CipherText\":\"\",\"RatchetKey\":\"\",\"Version\":3}") = .panic ∧
    newSKDMFromBytes jsonSKD (ascii "{\"ChainKey\":\"\",\"SigningKey\":\"\",\"Version\":3}") = .panic ∧
    newPreKeyMessageFromBytes jsonPK jsonSM (ascii "{\"BaseKey\":\"\",\"IdentityKey\":\"\",\"Message\":\"\",\"Version\":3}") = .panic := by
  decide +kernel

end Verif
