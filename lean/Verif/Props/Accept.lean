import Verif.Spec.Accept
import Verif.Props.Wire
/-
C62: which parsed messages are accepted, and with which keys.
-/
namespace Verif
open Spec

theorem copyInto_pad (n : Nat) (b : Bytes) : copyInto n b = (b ++ List.replicate n 0).take n := by
  rw [copyInto, List.take_append, List.take_replicate]
  by_cases h : b.length ≤ n
  · rw [List.take_of_length_le h]
    simp
  · simp [show n - b.length = 0 by omega]

/-- **C62 (DecodePoint).** A key is decoded exactly from a slice that starts (at the offset the code uses, 0) with type byte 5, and is the 32
bytes that follow (zeros where the slice is shorter); any other type byte is an error; only the empty slice panics. -/
theorem C62_decodePoint (b : Bytes) :
    (∀ k, decodePoint b = .ok k ↔ EncodesKey b k) ∧
    (decodePoint b = .panic ↔ b = []) ∧
    (∀ t rest, b = t :: rest → t ≠ 5 → decodePoint b = .err .badKeyType) := by
  refine ⟨fun k => ?_, ?_, ?_⟩
  · cases b with
    | nil => simp [decodePoint, EncodesKey]
    | cons t rest =>
      simp only [decodePoint, EncodesKey, List.cons.injEq]
      constructor
      · intro h
        split at h
        · rename_i ht
          cases h
          exact ⟨rest, ⟨ht, rfl⟩, copyInto_pad 32 rest⟩
        · cases h
      · rintro ⟨r, ⟨ht, rfl⟩, hk⟩
        rw [if_pos (show t = djbType from ht)]
        congr 1
        apply Arr.ext
        rw [hk]; exact copyInto_pad 32 rest
  · cases b with
    | nil => simp [decodePoint]
    | cons t rest => simp only [decodePoint]; split <;> simp
  · rintro t rest rfl ht
    rw [decodePoint, if_neg (show ¬ t = djbType from ht)]

/-- **C62 (decoding inverts encoding).** `DecodePoint` of `Serialize` is the key, and no two keys share an encoding. -/
theorem C62_key_roundtrip (k k' : Key32) : decodePoint (serPub k) = .ok k ∧ EncodesKey (serPub k) k ∧ (EncodesKey (serPub k) k' → k' = k) := by
  refine ⟨decodePoint_serPub k, ((C62_decodePoint _).1 k).1 (decodePoint_serPub k), fun h => ?_⟩
  have := ((C62_decodePoint _).1 k').2 h
  rw [decodePoint_serPub] at this
  cases this; rfl

theorem checkVersion_cases (v : Int) :
    (v < 2 ∧ checkVersion v = .err .legacyVersion) ∨ (3 < v ∧ checkVersion v = .err .unknownVersion) ∨ (VersionOk v ∧ checkVersion v = .ok ()) := by
  have hu : (unsupportedVersion : Int) = 1 := rfl
  have hc : (currentVersion : Int) = 3 := rfl
  unfold checkVersion VersionOk
  split
  · exact .inl ⟨by omega, rfl⟩
  · split
    · exact .inr (.inl ⟨by omega, rfl⟩)
    · exact .inr (.inr ⟨by omega, rfl⟩)

theorem checkVersion_ok_iff (v : Int) : checkVersion v = .ok () ↔ VersionOk v := by
  rcases checkVersion_cases v with ⟨h, e⟩ | ⟨h, e⟩ | ⟨h, e⟩ <;> rw [e] <;> simp only [VersionOk] at * <;> simp <;> omega

/-- **C62 (session message).** The parsed fields make a message exactly when the version is 2 or 3, ciphertext and ratchet key are present, and the
ratchet key carries type byte 5; the message then holds these fields and that key. -/
theorem C62_signal (st : SMStruct) (m : SignalMsg) :
    newSignalMessageFromStruct st = .ok m ↔
      VersionOk st.version ∧ (∃ ct, st.cipherText = some ct) ∧ (∃ rk, st.ratchetKey = some rk ∧ EncodesKey rk m.senderRatchetKey) ∧ m.struct = st := by
  rw [newSignalMessageFromStruct, ← checkVersion_ok_iff]
  cases checkVersion st.version with
  | err e => simp [Res.bind]
  | panic => simp [Res.bind]
  | ok u =>
    cases hc : st.cipherText with
    | none => simp [Res.bind]
    | some ct =>
      cases hr : st.ratchetKey with
      | none => simp [Res.bind]
      | some rk =>
        have key := (C62_decodePoint rk).1
        simp only [Res.bind, true_and, Option.some.injEq, exists_eq', exists_eq_left']
        cases hd : decodePoint rk with
        | ok k =>
          simp only [Res.map, Res.ok.injEq]
          constructor
          · rintro rfl
            exact ⟨(key k).1 hd, rfl⟩
          · rintro ⟨h, rfl⟩
            have := (key _).2 h
            rw [hd] at this
            cases m; cases this; rfl
        | err e =>
          simp only [Res.map, reduceCtorEq, false_iff, not_and]
          intro h; rw [(key _).2 h] at hd; cases hd
        | panic =>
          simp only [Res.map, reduceCtorEq, false_iff, not_and]
          intro h; rw [(key _).2 h] at hd; cases hd

/-- **C62 (session message bytes).** -/
theorem C62_signal_bytes (S : Ser SMStruct) (b : Bytes) (m : SignalMsg) :
    newSignalMessageFromBytes S b = .ok m ↔
      ∃ st, S.de b = .ok st ∧ VersionOk st.version ∧ (∃ ct, st.cipherText = some ct) ∧
        (∃ rk, st.ratchetKey = some rk ∧ EncodesKey rk m.senderRatchetKey) ∧ m.struct = st := by
  rw [newSignalMessageFromBytes]
  cases S.de b with
  | ok st =>
    refine (C62_signal st m).trans ⟨fun h => ⟨st, rfl, h⟩, ?_⟩
    rintro ⟨_, h, h'⟩
    cases h; exact h'
  | err e => simp [Res.bind]
  | panic => simp [Res.bind]

/-- **C62 (prekey message).** Version 2 or 3, base key, identity key and inner message present, both keys of type 5, and the inner bytes parse as a
session message. -/
theorem C62_preKey (S : Ser SMStruct) (st : PKStruct) (m : PreKeyMsg) :
    newPreKeyMessageFromStruct S st = .ok m ↔
      VersionOk st.version ∧ (∃ bk, st.baseKey = some bk ∧ EncodesKey bk m.baseKey) ∧ (∃ ik, st.identityKey = some ik ∧ EncodesKey ik m.identityKey) ∧
        (∃ msg, st.message = some msg ∧ newSignalMessageFromBytes S msg = .ok m.message) ∧ m.struct = st := by
  rw [newPreKeyMessageFromStruct, ← checkVersion_ok_iff]
  cases checkVersion st.version with
  | err e => simp [Res.bind]
  | panic => simp [Res.bind]
  | ok u =>
    cases hb : st.baseKey with
    | none => simp [Res.bind]
    | some bk =>
      cases hi : st.identityKey with
      | none => simp [Res.bind]
      | some ik =>
        cases hm : st.message with
        | none => simp [Res.bind]
        | some msg =>
          have kb := (C62_decodePoint bk).1
          have ki := (C62_decodePoint ik).1
          simp only [Res.bind, true_and, Option.some.injEq, exists_eq_left']
          constructor
          · intro h
            cases hd : decodePoint bk with
            | err e => rw [hd] at h; cases h
            | panic => rw [hd] at h; cases h
            | ok k =>
              rw [hd] at h; dsimp only at h
              cases hd' : decodePoint ik with
              | err e => rw [hd'] at h; cases h
              | panic => rw [hd'] at h; cases h
              | ok k' =>
                rw [hd'] at h; dsimp only at h
                cases hn : newSignalMessageFromBytes S msg with
                | err e => rw [hn] at h; cases h
                | panic => rw [hn] at h; cases h
                | ok im =>
                  rw [hn] at h
                  simp only [Res.map, Res.ok.injEq] at h
                  subst h
                  exact ⟨(kb _).1 hd, (ki _).1 hd', rfl, rfl⟩
          · rintro ⟨h1, h2, h3, rfl⟩
            rw [(kb _).2 h1, (ki _).2 h2]
            simp [h3, Res.map]

/-- **C62 (group message).** -/
theorem C62_sender_key (st : SKStruct) (m : SenderKeyMsg) :
    newSenderKeyMessageFromStruct st = .ok m ↔
      VersionOk st.version.toNat ∧ (∃ ct, st.cipherText = some ct) ∧
        m = ⟨st.version, st.id, st.iteration, st.cipherText, st.signature⟩ := by
  rw [newSenderKeyMessageFromStruct, ← checkVersion_ok_iff]
  cases checkVersion st.version.toNat with
  | err e => simp [Res.bind]
  | panic => simp [Res.bind]
  | ok u =>
    cases hc : st.cipherText with
    | none => simp [Res.bind]
    | some ct => simp [Res.bind, eq_comm]

/-- **C62 (distribution message).** -/
theorem C62_distribution (st : SKDStruct) (m : SKDMsg) :
    newSKDMFromStruct st = .ok m ↔
      VersionOk st.version.toNat ∧ (∃ ck, st.chainKey = some ck) ∧ (∃ sk, st.signingKey = some sk ∧ EncodesKey sk m.signatureKey) ∧
        m.id = st.id ∧ m.iteration = st.iteration ∧ m.chainKey = st.chainKey ∧ m.version = st.version := by
  rw [newSKDMFromStruct, ← checkVersion_ok_iff]
  cases checkVersion st.version.toNat with
  | err e => simp [Res.bind]
  | panic => simp [Res.bind]
  | ok u =>
    cases hs : st.signingKey with
    | none => simp [Res.bind]
    | some sk =>
      cases hc : st.chainKey with
      | none => simp [Res.bind]
      | some ck =>
        have key := (C62_decodePoint sk).1
        simp only [Res.bind, true_and, Option.some.injEq, exists_eq', exists_eq_left']
        constructor
        · intro h
          cases hd : decodePoint sk with
          | err e => rw [hd] at h; cases h
          | panic => rw [hd] at h; cases h
          | ok k =>
            rw [hd] at h
            simp only [Res.map, Res.ok.injEq] at h
            subst h
            exact ⟨(key _).1 hd, rfl, rfl, rfl, rfl⟩
        · rintro ⟨h1, h2, h3, h4, h5⟩
          rw [(key _).2 h1]
          cases m
          simp_all [Res.map]

/-- **C62 (version errors).** A parsed message of any of the four kinds with a version below 2 is refused as a legacy message, above 3 as an unknown
version, whatever its other fields hold. -/
theorem C62_versions (S : Ser SMStruct) :
    (∀ st : SMStruct, (st.version < 2 → newSignalMessageFromStruct st = .err .legacyVersion) ∧
      (3 < st.version → newSignalMessageFromStruct st = .err .unknownVersion)) ∧
    (∀ st : PKStruct, (st.version < 2 → newPreKeyMessageFromStruct S st = .err .legacyVersion) ∧
      (3 < st.version → newPreKeyMessageFromStruct S st = .err .unknownVersion)) ∧
    (∀ st : SKStruct, (st.version.toNat < 2 → newSenderKeyMessageFromStruct st = .err .legacyVersion) ∧
      (3 < st.version.toNat → newSenderKeyMessageFromStruct st = .err .unknownVersion)) ∧
    (∀ st : SKDStruct, (st.version.toNat < 2 → newSKDMFromStruct st = .err .legacyVersion) ∧
      (3 < st.version.toNat → newSKDMFromStruct st = .err .unknownVersion)) := by
  have low : ∀ v : Int, v < 2 → checkVersion v = .err .legacyVersion := by
    intro v h
    rcases checkVersion_cases v with ⟨_, e⟩ | ⟨h', _⟩ | ⟨h', _⟩
    · exact e
    · omega
    · rcases h' with h' | h' <;> omega
  have high : ∀ v : Int, 3 < v → checkVersion v = .err .unknownVersion := by
    intro v h
    rcases checkVersion_cases v with ⟨h', _⟩ | ⟨_, e⟩ | ⟨h', _⟩
    · omega
    · exact e
    · rcases h' with h' | h' <;> omega
  refine ⟨fun st => ⟨fun h => ?_, fun h => ?_⟩, fun st => ⟨fun h => ?_, fun h => ?_⟩, fun st => ⟨fun h => ?_, fun h => ?_⟩, fun st => ⟨fun h => ?_, fun h => ?_⟩⟩
  · rw [newSignalMessageFromStruct, low _ h]; rfl
  · rw [newSignalMessageFromStruct, high _ h]; rfl
  · rw [newPreKeyMessageFromStruct, low _ h]; rfl
  · rw [newPreKeyMessageFromStruct, high _ h]; rfl
  · rw [newSenderKeyMessageFromStruct, low _ (by omega)]; rfl
  · rw [newSenderKeyMessageFromStruct, high _ (by omega)]; rfl
  · rw [newSKDMFromStruct, low _ (by omega)]; rfl
  · rw [newSKDMFromStruct, high _ (by omega)]; rfl

/-- **C62 finding.** A key cut short is accepted: any encoding `5 :: rest` with fewer than 32 key bytes decodes to the zero-padded key, so a message with
a one-byte ratchet key is accepted with the all-zero key. -/
theorem C62_short_key_accepted :
    newSignalMessageFromStruct ⟨some [5], 0, 0, some [], 3, none⟩ = .ok ⟨⟨some [5], 0, 0, some [], 3, none⟩, sliceToArray 32 []⟩ ∧
    (sliceToArray 32 []).bytes = List.replicate 32 0 := by
  constructor <;> rfl

/-- A well-formed message, and messages refused for each reason. -/
example : newSignalMessageFromStruct ⟨some (5 :: List.replicate 32 7), 1, 0, some [9], 3, some [1]⟩ =
      .ok ⟨⟨some (5 :: List.replicate 32 7), 1, 0, some [9], 3, some [1]⟩, ⟨List.replicate 32 7, rfl⟩⟩ ∧
    newSignalMessageFromStruct ⟨some (6 :: List.replicate 32 7), 1, 0, some [9], 3, none⟩ = .err .badKeyType ∧
    newSignalMessageFromStruct ⟨some (5 :: List.replicate 32 7), 1, 0, none, 3, none⟩ = .err .incomplete ∧
    newSignalMessageFromStruct ⟨some (5 :: List.replicate 32 7), 1, 0, some [9], 1, none⟩ = .err .legacyVersion := by decide

end Verif
