import Verif.Model.Session
import Verif.Proofs.Keys
import Verif.Proofs.Cbc
/- What the message-building part of Encrypt does. -/
namespace Verif

/-- Encrypting a body under chain-derived keys always succeeds. -/
theorem encryptBody_ok (C : Crypto) (ck : ChainKey) (pt : Bytes) :
    ∃ body, encryptBody C (ck.msgKeys C) pt = .ok body ∧ body.length = 16 * (pt.length / 16 + 1) := by
  obtain ⟨h1, h2, h3, -⟩ := msgKeys_ok C ck
  unfold encryptBody
  rw [encryptCbc_some C none _ _ _ ((aesKeyOk_iff _).2 (.inr (.inr h1)))]
  refine ⟨_, cbcCrypt_ok _ _ _ _ h3 (pad_length pt), ?_⟩
  rw [ofBlocks_length, cbcEncBlocks_length, toBlocks_length]

theorem decryptBody_encryptBody (C : Crypto) (hA : C.AesLaw) (ck : ChainKey) (pt body : Bytes)
    (h : encryptBody C (ck.msgKeys C) pt = .ok body) : decryptBody C (ck.msgKeys C) body = .ok pt := by
  obtain ⟨h1, h2, h3, -⟩ := msgKeys_ok C ck
  have hk := (aesKeyOk_iff _).2 (.inr (.inr h1))
  unfold encryptBody at h
  rw [encryptCbc_some C none _ _ _ hk] at h
  obtain ⟨ct, e1, e2, e3⟩ := cbc_roundtrip C hA (ck.msgKeys C).cipherKey (ck.msgKeys C).iv (pad pt 16) _ hk h3 (pad_length pt)
  rw [e1] at h
  cases h
  unfold decryptBody decryptCbc
  rw [if_neg (by simp [hk]), if_neg (by rw [e2, pad_length]; omega)]
  simp [e3, unpad_pad]

/-- A successful Encrypt on a state. -/
theorem encryptState_ok {E : Env} {s s' : SState} {pt : Bytes} {cm : CipherMsg}
    (h : encryptState E s pt = (.ok cm, s')) :
    ∃ sc body sm, s.senderChain = some sc ∧ encryptBody E.C (sc.chainKey.msgKeys E.C) pt = .ok body ∧
      newSignalMessage E.C E.S s.version sc.chainKey.index s.previousCounter (sc.chainKey.msgKeys E.C).macKey
        sc.pair.pub body s.localIdentity s.remoteIdentity = .ok sm ∧
      s' = { s with senderChain := some { sc with chainKey := sc.chainKey.next E.C } } ∧
      ((s.pendingPreKey = none ∧ cm = .signal sm) ∨
       (∃ pp pm, s.pendingPreKey = some pp ∧
         newPreKeyMessage E.S s.version s.localRegistrationId pp.preKeyId pp.signedPreKeyId pp.baseKey
           s.localIdentity sm = .ok pm ∧ cm = .preKey pm)) := by
  unfold encryptState at h
  cases hsc : s.senderChain with
  | none => simp [hsc] at h
  | some sc =>
    simp only [hsc] at h
    cases hb : encryptBody E.C (sc.chainKey.msgKeys E.C) pt with
    | err e => simp [hb] at h
    | panic => simp [hb] at h
    | ok body =>
      simp only [hb] at h
      cases hm : newSignalMessage E.C E.S s.version sc.chainKey.index s.previousCounter
          (sc.chainKey.msgKeys E.C).macKey sc.pair.pub body s.localIdentity s.remoteIdentity with
      | err e => simp [hm] at h
      | panic => simp [hm] at h
      | ok sm =>
        simp only [hm] at h
        refine ⟨sc, body, sm, rfl, hb, hm, ?_⟩
        cases hp : s.pendingPreKey with
        | none =>
          simp only [hp, Prod.mk.injEq, Res.ok.injEq] at h
          exact ⟨by rw [← h.2], .inl ⟨rfl, h.1.symm⟩⟩
        | some pp =>
          simp only [hp] at h
          cases hq : newPreKeyMessage E.S s.version s.localRegistrationId pp.preKeyId pp.signedPreKeyId pp.baseKey
              s.localIdentity sm with
          | err e => simp [hq] at h
          | panic => simp [hq] at h
          | ok pm =>
            simp only [hq, Prod.mk.injEq, Res.ok.injEq] at h
            exact ⟨by rw [← h.2], .inr ⟨pp, pm, rfl, hq, h.1.symm⟩⟩

/-- An unsuccessful Encrypt leaves the state as it was. -/
theorem encryptState_fail {E : Env} {s s' : SState} {pt : Bytes} {x : Res CipherMsg}
    (h : encryptState E s pt = (x, s')) (hx : x.isOk = false) : s' = s := by
  unfold encryptState at h
  cases hsc : s.senderChain with
  | none => simp [hsc] at h; exact h.2.symm
  | some sc =>
    simp only [hsc] at h
    cases hb : encryptBody E.C (sc.chainKey.msgKeys E.C) pt with
    | err e => simp [hb] at h; exact h.2.symm
    | panic => simp [hb] at h; exact h.2.symm
    | ok body =>
      simp only [hb] at h
      cases hm : newSignalMessage E.C E.S s.version sc.chainKey.index s.previousCounter
          (sc.chainKey.msgKeys E.C).macKey sc.pair.pub body s.localIdentity s.remoteIdentity with
      | err e => simp [hm] at h; exact h.2.symm
      | panic => simp [hm] at h; exact h.2.symm
      | ok sm =>
        simp only [hm] at h
        cases hp : s.pendingPreKey with
        | none => simp only [hp, Prod.mk.injEq] at h; rw [← h.1] at hx; simp [Res.isOk] at hx
        | some pp =>
          simp only [hp] at h
          cases hq : newPreKeyMessage E.S s.version s.localRegistrationId pp.preKeyId pp.signedPreKeyId pp.baseKey
              s.localIdentity sm with
          | err e => simp [hq] at h; exact h.2.symm
          | panic => simp [hq] at h; exact h.2.symm
          | ok pm => simp only [hq, Prod.mk.injEq] at h; rw [← h.1] at hx; simp [Res.isOk] at hx

end Verif
