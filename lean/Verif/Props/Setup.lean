import Verif.Props.Crash
import Verif.Props.Groups
/-
C55: what a session records about its peer.  C56: a failed group operation stores nothing.  C58: a prekey message that
cannot set up a session stores nothing.
-/
set_option linter.unusedSimpArgs false
namespace Verif

/-- **C55 (initiator).** After a bundle was processed, the stored session names the bundle's registration id, identity key
and prekey ids, and our own registration id and identity key. -/
theorem C55_bundle (E : Env) (st st' : Store) (pos pos' : Nat) (a : Addr) (b : Bundle)
    (h : st.processBundle E pos a b = (.ok (), st', pos')) :
    ∃ r base, st'.load a = .ok r ∧ r.state.remoteRegistrationId = b.registrationId ∧
      r.state.localRegistrationId = E.registrationId ∧ r.state.remoteIdentity = some b.identityKey ∧
      r.state.localIdentity = some E.identity.pub ∧ r.state.version = 3 ∧ r.state.senderBaseKey = some base ∧
      r.state.pendingPreKey = some ⟨b.preKeyId, b.signedPreKeyId, base⟩ := by
  obtain ⟨r, spk, r', -, -, h3, h4, -⟩ := Store.processBundle_ok h
  obtain ⟨base, bp, ratchet, derived, sending, -, -, -, -, -, h5, -⟩ := buildFromBundle_ok h3
  refine ⟨_, base.pub, h4, ?_⟩
  rw [ofStates_state, h5]
  simp only [Rec.state, Rec.set_heap_same, Rec.set, if_true]
  exact ⟨rfl, rfl, rfl, rfl, rfl, rfl, rfl⟩

/-- **C55 (responder).** After a prekey message established a session with somebody we had none with, the stored session
names the message's registration id and identity key, and our own. -/
theorem C55_first_message (E : Env) (st st' : Store) (pos pos' : Nat) (a : Addr) (m : PreKeyMsg) (x : Bytes × MsgKeys)
    (hnew : st.sessions a = none) (h : st.decryptPreKey E pos a m = (.ok x, st', pos')) :
    ∃ r, st'.load a = .ok r ∧ r.state.remoteRegistrationId = m.struct.registrationId ∧
      r.state.localRegistrationId = E.registrationId ∧ r.state.remoteIdentity = some m.identityKey ∧
      r.state.localIdentity = some E.identity.pub ∧ r.state.version = 3 ∧ r.state.senderBaseKey = some m.baseKey := by
  obtain ⟨r, r1, r', id, h1, h2, h3, h4, -⟩ := Store.decryptPreKey_ok h
  have hr : r = Rec.new := by
    simp only [Store.load, hnew, Res.ok.injEq] at h1; exact h1.symm
  subst hr
  have hk : ¬ Knows Rec.new m := by
    rintro ⟨s, hs, -, hb⟩
    simp only [Rec.new, Rec.state, Rec.prevStates, List.map_nil, List.mem_cons, List.not_mem_nil, or_false] at hs
    subst hs
    simp [SState.new] at hb
  have hv : processV3 E st.preKeys st.signedPreKeys Rec.new m = (.ok (some id), r1) := by
    unfold process at h2
    split at h2
    · simp at h2
    · cases hp : processV3 E st.preKeys st.signedPreKeys Rec.new m with
      | mk res r2 =>
        rw [hp] at h2
        cases res with
        | err e => simp at h2
        | panic => simp at h2
        | ok i => simp only [Prod.mk.injEq] at h2; rw [h2.1, h2.2.1]
  obtain ⟨kp, ot, keys, -, -, -, e⟩ := processV3_new hk hv
  have hfresh : (Rec.new).fresh = true := rfl
  simp only [hfresh, if_true] at e
  obtain ⟨b, s, d, s', bb, hb, hkept, hd, hs', -⟩ := decryptWithRecord_ok h3
  have hcur : b = r1.cur := by
    rcases hb with hb | hb
    · exact hb
    · rw [e] at hb; simp [Rec.set, Rec.new] at hb
  have hk2 := decryptWithState_kept E d s m.message
  rw [hd] at hk2
  have hk3 := hkept.trans hk2
  simp only at hk3
  have hst : r1.heap b = respond E Rec.new.state m kp keys := by
    rw [hcur, e]
    simp [Rec.set]
  rw [hst] at hk3
  refine ⟨_, h4, ?_⟩
  rw [ofStates_state, hs']
  exact ⟨hk3.rreg, hk3.lreg, hk3.remote, hk3.loc, hk3.version, hk3.base⟩

/-- **C55 (later).** No later successful decryption or encryption changes the registration ids, identities, version or
base key of a session: the state left current is one of the states that were stored before, with the same values. -/
theorem C55_kept_by_decrypt (E : Env) (st st' : Store) (pos pos' : Nat) (a : Addr) (m : SignalMsg) (x : Bytes × MsgKeys)
    (h : st.decrypt E pos a m = (.ok x, st', pos')) :
    ∃ r r' old, st.load a = .ok r ∧ st'.load a = .ok r' ∧ (old = r.state ∨ old ∈ r.prevStates) ∧
      r'.state.remoteRegistrationId = old.remoteRegistrationId ∧ r'.state.localRegistrationId = old.localRegistrationId ∧
      r'.state.remoteIdentity = old.remoteIdentity ∧ r'.state.localIdentity = old.localIdentity ∧
      r'.state.version = old.version ∧ r'.state.senderBaseKey = old.senderBaseKey := by
  obtain ⟨r, r', h1, -, h3, h4, -⟩ := Store.decrypt_ok h
  obtain ⟨b, s, d, s', bb, hb, hkept, hd, hs', -⟩ := decryptWithRecord_ok h3
  have hk2 := decryptWithState_kept E d s m
  rw [hd] at hk2
  have hk3 := hkept.trans hk2
  refine ⟨r, _, r.heap b, h1, h4, ?_, ?_⟩
  · rcases hb with rfl | hb
    · exact .inl rfl
    · exact .inr (List.mem_map.2 ⟨b, hb, rfl⟩)
  · rw [ofStates_state, hs']
    exact ⟨hk3.rreg, hk3.lreg, hk3.remote, hk3.loc, hk3.version, hk3.base⟩

theorem C55_kept_by_encrypt (E : Env) (st st' : Store) (a : Addr) (pt : Bytes) (cm : CipherMsg)
    (h : st.encrypt E a pt = (.ok cm, st')) :
    ∃ r r', st.load a = .ok r ∧ st'.load a = .ok r' ∧
      r'.state.remoteRegistrationId = r.state.remoteRegistrationId ∧ r'.state.localRegistrationId = r.state.localRegistrationId ∧
      r'.state.remoteIdentity = r.state.remoteIdentity ∧ r'.state.localIdentity = r.state.localIdentity ∧
      r'.state.version = r.state.version ∧ r'.state.senderBaseKey = r.state.senderBaseKey := by
  obtain ⟨r, s', h1, h2, h3, -⟩ := Store.encrypt_ok h
  obtain ⟨sc, body, sm, -, -, -, h4, -⟩ := encryptState_ok h2
  refine ⟨r, _, h1, h3, ?_⟩
  rw [ofStates_state, h4]
  exact ⟨rfl, rfl, rfl, rfl, rfl, rfl⟩

/-- **C56.** A group operation that fails, for whatever reason, leaves a serialising sender-key store exactly as it was. -/
theorem C56_failed_group_operation (C : Crypto) (S : Ser SKStruct) (rand : Arr 64) (st : GStore) (n : SenderKeyName) (pt : Bytes)
    (m : SenderKeyMsg) (k : SKDMsg) :
    ((st.decrypt C S n m).1.isOk = false → (st.decrypt C S n m).2 = st) ∧
    ((st.encrypt C S rand n pt).1.isOk = false → (st.encrypt C S rand n pt).2 = st) ∧
    ((st.process n k).1.isOk = false → (st.process n k).2 = st) := by
  refine ⟨?_, ?_, ?_⟩
  · intro h
    cases hl : st.load n with
    | err e => simp [GStore.decrypt, hl]
    | panic => simp [GStore.decrypt, hl]
    | ok r =>
      cases r with
      | none => simp [GStore.decrypt, hl, groupDecrypt]
      | some r =>
        rcases GStore.decrypt_cases C S hl m with ⟨h1, -⟩ | ⟨s, body, mk, s', pt, -, -, -, -, -, h6, -⟩
        · exact h1
        · rw [h6] at h; cases h
  · intro h
    unfold GStore.encrypt at h ⊢
    cases hl : st.load n with
    | err e => rfl
    | panic => rfl
    | ok r =>
      simp only [hl] at h ⊢
      cases hg : groupEncrypt C S rand r pt with
      | mk res z =>
        obtain ⟨r', b⟩ := z
        rw [hg] at h
        unfold groupEncrypt at hg
        match r, hg with
        | none, hg => simp only [Prod.mk.injEq] at hg; obtain ⟨-, rfl, rfl⟩ := hg; rfl
        | some [], hg => simp only [Prod.mk.injEq] at hg; obtain ⟨-, rfl, rfl⟩ := hg; rfl
        | some (s :: rest), hg =>
          simp only at hg
          split at hg
          · simp only [Prod.mk.injEq] at hg; obtain ⟨-, rfl, rfl⟩ := hg; rfl
          · simp only [Prod.mk.injEq] at hg; obtain ⟨-, rfl, rfl⟩ := hg; rfl
          · simp only [Prod.mk.injEq] at hg; obtain ⟨rfl, rfl, rfl⟩ := hg; cases h
  · intro h
    unfold GStore.process at h ⊢
    cases hl : st.load n with
    | err e => rfl
    | panic => rfl
    | ok r => simp [hl, Res.isOk] at h

/-- **C58.** A prekey message with a base key we do not know, naming a signed or one-time prekey we do not have, is not
decrypted, and nothing is stored, saved, removed or drawn from the random source — in the serialising store and in the
in-memory one (where only the empty record a lookup creates may appear). -/
theorem C58_unknown_preKey_changes_nothing (E : Env) (st : Store) (live : LiveStore) (pos : Nat) (a : Addr) (m : PreKeyMsg) :
    (∀ r, st.load a = .ok r → ¬ Knows r m →
      (st.signedPreKeys m.struct.signedPreKeyId = none ∨ ∃ o, m.struct.preKeyId = some o ∧ st.preKeys o.value = none) →
      (st.decryptPreKey E pos a m).1.isOk = false ∧ (st.decryptPreKey E pos a m).2 = (st, pos)) ∧
    (¬ Knows (live.load a) m →
      (live.signedPreKeys m.struct.signedPreKeyId = none ∨ ∃ o, m.struct.preKeyId = some o ∧ live.preKeys o.value = none) →
      (live.decryptPreKey E pos a m).1.isOk = false ∧
      (live.decryptPreKey E pos a m).2 = ({ live with sessions := upd live.sessions a (some (live.load a)) }, pos)) := by
  have key : ∀ (ids : Addr → Option Key32) (pk spk : UInt32 → Option IdKeyPair) (r : Rec), ¬ Knows r m →
      (spk m.struct.signedPreKeyId = none ∨ ∃ o, m.struct.preKeyId = some o ∧ pk o.value = none) →
      ∃ res, decryptPreKeyRec E ids pk spk pos a r m = (res, r, pos, []) ∧ res.isOk = false := by
    intro ids pk spk r hk hbad
    have hp : ∃ res, process E ids pk spk a r m = (res, r, []) ∧ res.isOk = false := by
      unfold process
      split
      · exact ⟨_, rfl, rfl⟩
      · have : ∃ res, processV3 E pk spk r m = (res, r) ∧ res.isOk = false := by
          unfold processV3
          rw [if_neg (by rw [hasSessionState_iff]; exact hk)]
          cases hs : spk m.struct.signedPreKeyId with
          | none => exact ⟨_, rfl, rfl⟩
          | some kp =>
            rcases hbad with hb | ⟨o, ho, hp⟩
            · rw [hs] at hb; cases hb
            · simp only [ho, hp]
              exact ⟨_, rfl, rfl⟩
        obtain ⟨res, e1, e2⟩ := this
        rw [e1]
        cases res with
        | ok i => cases e2
        | err e => exact ⟨_, rfl, rfl⟩
        | panic => exact ⟨_, rfl, rfl⟩
    obtain ⟨res, e1, e2⟩ := hp
    unfold decryptPreKeyRec
    rw [e1]
    cases res with
    | ok i => cases e2
    | err e => exact ⟨_, rfl, rfl⟩
    | panic => exact ⟨_, rfl, rfl⟩
  constructor
  · intro r hl hk hbad
    obtain ⟨res, e1, e2⟩ := key st.identities st.preKeys st.signedPreKeys r hk hbad
    simp only [Store.decryptPreKey, Store.decryptPreKeyTrace, hl, e1, finish, Store.applyAll]
    exact ⟨e2, trivial⟩
  · intro hk hbad
    obtain ⟨res, e1, e2⟩ := key live.identities live.preKeys live.signedPreKeys (live.load a) hk hbad
    simp only [LiveStore.decryptPreKey, e1]
    exact ⟨e2, rfl⟩

/-- **C58.** A signal message from an address with no session is rejected with the "No session" error, and changes nothing —
not even the empty record other calls leave in the in-memory store; a sender-key message for which the record is empty
is rejected with "No sender key for" and changes nothing in the store. -/
theorem C58_no_session (E : Env) (st : Store) (live : LiveStore) (pos : Nat) (a : Addr) (m : SignalMsg)
    (gs : GStore) (n : SenderKeyName) (gm : SenderKeyMsg) (skSer : Ser SKStruct) :
    (st.sessions a = none → st.decrypt E pos a m = (.err .noSession, st, pos)) ∧
    (live.sessions a = none → live.decrypt E pos a m = (.err .noSession, live, pos)) ∧
    (gs.load n = .ok (some []) → gs.decrypt E.C skSer n gm = (.err .noSenderKeyRecord, gs)) := by
  refine ⟨?_, ?_, ?_⟩
  · intro h
    simp [Store.decrypt, Store.decryptTrace, h, finish, Store.applyAll]
  · intro h
    simp [LiveStore.decrypt, h]
  · intro h
    simp [GStore.decrypt, h, groupDecrypt]

section
open Toy
set_option maxRecDepth 100000
/-- Non-vacuity of C58: nothing is stored for a stranger; a key record whose states are all gone. -/
example : emptyStore.sessions alice = none ∧ (LiveStore.mk (fun _ => none) (fun _ => none) (fun _ => none) (fun _ => none)).sessions alice = none ∧
    ∀ n, (GStore.mk fun _ => some []).load n = .ok (some []) := ⟨rfl, rfl, fun _ => rfl⟩
/-- Non-vacuity of C55: Alice's session from the bundle, Bob's from her first message, and both after a reply. -/
example : (emptyStore.processBundle aliceEnv 0 bob bundle).1 = .ok () ∧ (stateOf alice1 bob).remoteRegistrationId = 100 ∧
    bobStore.sessions alice = none ∧ dec1.1.isOk = true ∧ (stateOf bob1 alice).remoteRegistrationId = aliceEnv.registrationId ∧
    decA1.1.isOk = true ∧ enc3.1.isOk = true := by decide +kernel
/-- Non-vacuity of C58: Alice's message arriving at a Bob who lacks the one-time prekey, or the signed one. -/
example : ¬ Knows Rec.new msg1 ∧ msg1.struct.preKeyId = some ⟨9, false⟩ ∧
    ({ bobStore with preKeys := fun _ => none } : Store).preKeys 9 = none ∧
    (({ bobStore with preKeys := fun _ => none } : Store).decryptPreKey bobEnv 0 alice msg1).1.isOk = false ∧
    (({ bobStore with signedPreKeys := fun _ => none } : Store).decryptPreKey bobEnv 0 alice msg1).1.isOk = false :=
  ⟨by decide +kernel, by decide +kernel, rfl, by decide +kernel, by decide +kernel⟩
/-- Non-vacuity of C56: an operation on an empty store fails. -/
example (n : SenderKeyName) (m : SenderKeyMsg) : ((GStore.mk fun _ => none).decrypt C protoSK n m).1.isOk = false ∧
    ((GStore.mk fun _ => none).encrypt C protoSK ⟨List.replicate 64 0, rfl⟩ n [1]).1.isOk = false :=
  ⟨rfl, rfl⟩
end

end Verif
