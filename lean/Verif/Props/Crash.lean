import Verif.Props.Concurrent
import Verif.Props.PreKeyFlow
/-
C40: crashes while a first prekey message is being decrypted.
-/
set_option linter.unusedSimpArgs false
namespace Verif

/-- The state a responder creates (session/session.go:140-163). -/
def respond (E : Env) (s : SState) (m : PreKeyMsg) (spk : IdKeyPair) (keys : SessionKeys) : SState :=
  { ({ s with version := currentVersion, remoteIdentity := some m.identityKey,
              localIdentity := some E.identity.pub } : SState).setSenderChain ⟨spk.pub, some spk.priv⟩ keys.chain with
    rootKey := some keys.root, localRegistrationId := E.registrationId,
    remoteRegistrationId := m.struct.registrationId, senderBaseKey := some m.baseKey }

/-- The record after a prekey message with an unknown base key was processed. -/
theorem processV3_new {E : Env} {pk spk : UInt32 → Option IdKeyPair} {r r' : Rec} {m : PreKeyMsg} {id : Option OptU32} (hk : ¬ Knows r m)
    (h : processV3 E pk spk r m = (.ok id, r')) :
    ∃ kp ot keys, spk m.struct.signedPreKeyId = some kp ∧
      calculateReceiverSession E.C ⟨E.identity, kp.priv, ot, m.baseKey, m.identityKey⟩ = .ok keys ∧
      ((m.struct.preKeyId = none ∧ ot = none) ∨ ∃ o kp2, m.struct.preKeyId = some o ∧ pk o.value = some kp2 ∧ ot = some kp2.priv) ∧
      r' = (if r.fresh then r else r.archiveCurrentState).set (if r.fresh then r else r.archiveCurrentState).cur
        (respond E (if r.fresh then r else r.archiveCurrentState).state m kp keys) := by
  unfold processV3 at h
  rw [if_neg (by rw [hasSessionState_iff]; exact hk)] at h
  cases hs : spk m.struct.signedPreKeyId with
  | none => simp [hs] at h
  | some kp =>
    simp only [hs] at h
    cases hp : m.struct.preKeyId with
    | none =>
      simp only [hp] at h
      cases hc : calculateReceiverSession E.C ⟨E.identity, kp.priv, none, m.baseKey, m.identityKey⟩ with
      | err e => simp [hc] at h
      | panic => simp [hc] at h
      | ok keys =>
        simp only [hc, Prod.mk.injEq, Res.ok.injEq] at h
        exact ⟨kp, none, keys, rfl, hc, .inl ⟨rfl, rfl⟩, h.2.symm⟩
    | some o =>
      simp only [hp] at h
      cases hk2 : pk o.value with
      | none => simp [hk2] at h
      | some kp2 =>
        simp only [hk2] at h
        cases hc : calculateReceiverSession E.C ⟨E.identity, kp.priv, some kp2.priv, m.baseKey, m.identityKey⟩ with
        | err e => simp [hc] at h
        | panic => simp [hc] at h
        | ok keys =>
          simp only [hc, Prod.mk.injEq, Res.ok.injEq] at h
          exact ⟨kp, some kp2.priv, keys, rfl, hc, .inr ⟨o, kp2, rfl, hk2, rfl⟩, h.2.symm⟩

theorem not_knows_new (m : PreKeyMsg) : ¬ Knows Rec.new m := by
  rintro ⟨s, hs, -, h⟩
  simp only [Rec.new, Rec.state, Rec.prevStates, List.map_nil, List.mem_singleton] at hs
  subst hs
  simp [SState.new] at h

/-- The result of decrypting does not depend on the key drawn for the answer, as long as one is available. -/
theorem decryptWithState_draw (E : Env) (s : SState) (m : SignalMsg) (r r' : Key32) :
    (decryptWithState E (some r) s m).1 = (decryptWithState E (some r') s m).1 := by
  unfold decryptWithState
  cases hsc : s.senderChain with
  | none => rfl
  | some sc =>
    by_cases hv : m.struct.version = s.version
    · have hn := decryptWithState_new E s m
      cases hc : s.receiverChain m.senderRatchetKey with
      | some c =>
        have e : ∀ d, getOrCreateChainKey E.C d s m.senderRatchetKey = (.ok c.chainKey, s, false) := by
          intro d; simp [getOrCreateChainKey, hc]
        simp only [e]
      | none =>
        cases hr : s.rootKey with
        | none =>
          have e : ∀ d, getOrCreateChainKey E.C d s m.senderRatchetKey = (.panic, s, false) := by
            intro d; simp [getOrCreateChainKey, hc, hr]
          simp only [e]
        | some root =>
          cases hp : sc.pair.priv with
          | none =>
            have e : ∀ d, getOrCreateChainKey E.C d s m.senderRatchetKey = (.panic, s, false) := by
              intro d; simp [getOrCreateChainKey, hc, hr, hsc, createChain, hp]
            simp only [e]
          | some p =>
            have h1 := hn root sc p r hv hc hr hsc hp none
            have h2 := hn root sc p r' hv hc hr hsc hp none
            have g : ∀ q, (decryptWithState E none (ratchetStep E.C s m.senderRatchetKey root sc.chainKey.index p q) m).1 =
                (match (⟨⟨m.senderRatchetKey, none⟩, (kdfRoot E.C root (E.C.dh m.senderRatchetKey p)).chain, []⟩ : Chain).recv E.C m.struct.counter with
                 | (.ok mk, _) => openWith E s.remoteIdentity s.localIdentity m mk
                 | (.err e, _) => .err e
                 | (.panic, _) => .panic) := by
              intro q
              rw [decryptWithState_existing E none (ratchetStep E.C s m.senderRatchetKey root sc.chainKey.index p q) m _
                (by simp [ratchetStep, SState.setSenderChain]) hv (ratchetStep_chain E.C s m.senderRatchetKey root sc.chainKey.index p q hc)]
              split <;> rename_i heq <;> (simp only [heq]; try rfl)
            have e : (decryptWithState E (some r) s m).1 = (decryptWithState E (some r') s m).1 := by
              rw [h1, h2]; simp only; rw [g, g]
            unfold decryptWithState at e
            simpa [hsc] using e
    · simp [hv]

/-- Decrypting keeps a state initialised. -/
theorem decryptWithState_initialised {E : Env} {d : Option Key32} {s s' : SState} {m : SignalMsg} {x : Bytes × MsgKeys} {b : Bool}
    (h : decryptWithState E d s m = (.ok x, s', b)) (hi : s.Initialised) : s'.Initialised := by
  have hk := decryptWithState_kept E d s m
  have hs := (decryptWithState_keeps E d s m hi.2.2.2.2).1
  have hr : (decryptWithState E d s m).2.1.rootKey ≠ none := by
    rcases decryptWithState_cases E d s m with ⟨res, d', he, -, -⟩ | ⟨s1, c, d', hc, h1, -, hs1, he⟩
    · rw [he]; exact hi.2.2.1
    · have hv : s1.rootKey ≠ none := by
        rcases hs1 with ⟨rfl, -⟩ | ⟨-, -, root, sc, p, r, -, -, -, -, rfl⟩
        · exact hi.2.2.1
        · simp [ratchetStep, SState.setSenderChain, SState.addReceiverChain]
      rw [he]
      split
      · generalize Res.isOk _ = b; cases b <;> exact hv
      · exact hv
      · exact hv
  rw [h] at hk hs hr
  exact ⟨by rw [hk.loc]; exact hi.1, by rw [hk.remote]; exact hi.2.1, hr, by rw [hk.base]; exact hi.2.2.2.1, hs⟩

theorem respond_initialised (E : Env) (s : SState) (m : PreKeyMsg) (spk : IdKeyPair) (keys : SessionKeys) : (respond E s m spk keys).Initialised := by
  simp [SState.Initialised, respond, SState.setSenderChain]

/-- Decrypting with a record that has only a current state. -/
theorem decryptWithRecord_single {E : Env} {pos : Nat} {r : Rec} {m : SignalMsg} (hp : r.prev = []) :
    decryptWithRecord E pos r m =
      ((match (decryptWithState E (E.rng pos) r.state m).1 with | .err _ => .err .noValidSessions | y => y),
       r.set r.cur (decryptWithState E (E.rng pos) r.state m).2.1, bump pos (decryptWithState E (E.rng pos) r.state m).2.2) := by
  unfold decryptWithRecord Rec.state
  cases hd : decryptWithState E (E.rng pos) (r.heap r.cur) m with
  | mk res y =>
    obtain ⟨s', d⟩ := y
    cases res with
    | ok x => rfl
    | panic => rfl
    | err e => simp only [hp, tryPrevious]

/-- **C40.** Suppose decrypting a first prekey message (no session with the sender yet) would succeed with result `x`.  Let the process stop
after any number `k` of the call's store operations, and decrypt the same message again after the restart (with working
randomness, the identity being accepted still once saved).
* Stopped before the session was stored: no session is stored, all prekeys are still there, and the second attempt returns exactly `x`.
* Stopped after: the session is stored as if the call had completed, and the second attempt fails with
  "no valid sessions" and changes no session (the message is a duplicate). -/
theorem C40_crash_recoverable (E : Env) (st st' : Store) (pos pos' : Nat) (a : Addr) (m : PreKeyMsg) (x : Bytes × MsgKeys)
    (hnew : st.sessions a = none) (hver : m.struct.version = currentVersion) (hctr : m.message.struct.counter.toNat ≠ 2 ^ 32 - 1)
    (h : st.decryptPreKey E pos a m = (.ok x, st', pos'))
    (htrust : E.trusted (upd st.identities a (some m.identityKey)) a m.identityKey = true)
    (k : Nat) (pos2 : Nat) (hrand : E.rng pos2 ≠ none) :
    let st1 := (st.applyAll ((st.decryptPreKeyTrace E pos a m).2.2.take k)).1
    if k < 2 then
      st1.sessions a = none ∧ st1.preKeys = st.preKeys ∧ (st1.decryptPreKey E pos2 a m).1 = .ok x
    else
      st1.sessions a = st'.sessions a ∧ st'.sessions a ≠ none ∧ (st1.decryptPreKey E pos2 a m).1 = .err .noValidSessions ∧
      (st1.decryptPreKey E pos2 a m).2.1.sessions = st1.sessions := by
  intro st1
  obtain ⟨r, r1, r', id, hl, hp, hd, hl', hs', -, hpk', hids⟩ := Store.decryptPreKey_ok h
  have hr : r = Rec.new := by
    unfold Store.load at hl; rw [hnew] at hl; exact (Res.ok.inj hl).symm
  subst hr
  have hp0 := hp
  unfold process at hp
  split at hp
  · simp at hp
  rename_i htr0
  cases hv3 : processV3 E st.preKeys st.signedPreKeys Rec.new m with
  | mk res rr =>
  rw [hv3] at hp
  cases res with
  | err e => simp at hp
  | panic => simp at hp
  | ok id' =>
  simp only [Prod.mk.injEq, Res.ok.injEq, and_true] at hp
  obtain ⟨rfl, rfl⟩ := hp
  obtain ⟨kp, ot, keys, hspk, hcalc, hot, hr1⟩ := processV3_new (not_knows_new m) hv3
  have hf : Rec.new.fresh = true := rfl
  rw [hf] at hr1
  simp only [if_true] at hr1
  have hst : rr.state = respond E SState.new m kp keys := by rw [hr1]; simp [Rec.state, Rec.new]
  have hprev : rr.prev = [] := by rw [hr1]; rfl
  rw [decryptWithRecord_single hprev, hst] at hd
  cases hds : decryptWithState E (E.rng pos) (respond E SState.new m kp keys) m.message with
  | mk res2 y =>
  obtain ⟨s2, d2⟩ := y
  rw [hds] at hd
  simp only [Prod.mk.injEq] at hd
  cases res2 with
  | err e => simp at hd
  | panic => simp at hd
  | ok x' =>
  simp only [Res.ok.injEq] at hd
  obtain ⟨rfl, hr', -⟩ := hd
  have hinit2 := decryptWithState_initialised hds (respond_initialised E _ m kp keys)
  have hrs : r'.state = s2 := by rw [← hr']; simp [Rec.state]
  have hrp : r'.prevStates = [] := by rw [← hr']; simp [Rec.prevStates, hprev]
  -- the first draw was available
  have hdraw : ∃ r0, E.rng pos = some r0 := by
    rcases decryptWithState_cases E (E.rng pos) (respond E SState.new m kp keys) m.message with ⟨res, d, he, hno, -⟩ | ⟨s1, c, d, hc, -, -, hs1, -⟩
    · rw [hds] at he
      simp only [Prod.mk.injEq] at he
      rw [← he.1] at hno; simp [Res.isOk] at hno
    · rcases hs1 with ⟨rfl, -⟩ | ⟨-, -, root, sc, p, r0, -, -, -, hr0, -⟩
      · simp [respond, SState.receiverChain, SState.setSenderChain, SState.new] at hc
      · exact ⟨r0, hr0⟩
  obtain ⟨r0, hr0⟩ := hdraw
  obtain ⟨q, hq⟩ := Option.ne_none_iff_exists'.1 hrand
  -- a second attempt against stores without a session
  have retry : ∀ stx : Store, stx.sessions = st.sessions → stx.preKeys = st.preKeys → stx.signedPreKeys = st.signedPreKeys →
      E.trusted stx.identities a m.identityKey = true → (stx.decryptPreKey E pos2 a m).1 = .ok x' := by
    intro stx e1 e2 e3 e4
    have hlx : stx.load a = .ok Rec.new := by unfold Store.load; rw [e1, hnew]
    have hpx : process E stx.identities stx.preKeys stx.signedPreKeys a Rec.new m =
        (.ok (some id), rr, [.saveIdentity a (some m.identityKey)]) := by
      unfold process
      rw [if_neg (by simp [e4]), e2, e3, hv3]
    have hres : (decryptWithState E (E.rng pos2) (respond E SState.new m kp keys) m.message).1 = .ok x' := by
      rw [hq, decryptWithState_draw E _ _ q r0, ← hr0, hds]
    have hdx : decryptWithRecord E pos2 rr m.message =
        (.ok x', rr.set rr.cur (decryptWithState E (E.rng pos2) (respond E SState.new m kp keys) m.message).2.1,
          bump pos2 (decryptWithState E (E.rng pos2) (respond E SState.new m kp keys) m.message).2.2) := by
      rw [decryptWithRecord_single hprev, hst, hres]
    obtain ⟨str, hstr⟩ := toStruct_of_init (r := rr.set rr.cur (decryptWithState E (E.rng pos2) (respond E SState.new m kp keys) m.message).2.1) (by
      have e1 : (rr.set rr.cur (decryptWithState E (E.rng pos2) (respond E SState.new m kp keys) m.message).2.1).prevStates = [] := by
        simp [Rec.prevStates, hprev]
      rw [e1]
      intro s hs
      simp only [List.mem_singleton, Rec.state, Rec.set_cur, Rec.set_heap_same] at hs
      subst hs
      exact decryptWithState_initialised (x := x') (b := (decryptWithState E (E.rng pos2) (respond E SState.new m kp keys) m.message).2.2)
        (by rw [← hres]) (respond_initialised E _ m kp keys))
    simp only [Store.decryptPreKey, Store.decryptPreKeyTrace, hlx, decryptPreKeyRec, hpx, hdx, finish_fst]
    by_cases ho : id.isEmpty <;> simp [ho, Store.applyAll, Store.apply, hstr]
  have htrace : (st.decryptPreKeyTrace E pos a m).2.2 = [.saveIdentity a (some m.identityKey), .storeSession a r'] ++
      (if id.isEmpty then [] else [.removePreKey id.value]) := by
    have hdr : decryptWithRecord E pos rr m.message = (.ok x', r', bump pos d2) := by
      rw [decryptWithRecord_single hprev, hst, hds]; simp only [hr']
    simp only [Store.decryptPreKeyTrace, hl, decryptPreKeyRec, hp0, hdr]
    by_cases ho : id.isEmpty <;> simp [ho]
  obtain ⟨str, hstr⟩ := toStruct_of_init (r := r') (by rw [hrs, hrp]; intro s hs; simp at hs; subst hs; exact hinit2)
  by_cases hk : k < 2
  · rw [if_pos hk]
    have : k = 0 ∨ k = 1 := by omega
    rcases this with rfl | rfl
    · exact ⟨hnew, rfl, retry st rfl rfl rfl (by simpa using htr0)⟩
    · have e : st1 = { st with identities := upd st.identities a (some m.identityKey) } := by
        simp only [st1, htrace]; rfl
      rw [e]
      exact ⟨hnew, rfl, retry _ rfl rfl rfl htrust⟩
  · rw [if_neg hk]
    have hst1 : st1.sessions = upd st.sessions a (some str) ∧ st1.identities = upd st.identities a (some m.identityKey) := by
      obtain ⟨k', rfl⟩ : ∃ k', k = k' + 2 := ⟨k - 2, by omega⟩
      simp only [st1, htrace, List.cons_append, List.nil_append, List.take_succ_cons, Store.applyAll, Store.apply, hstr]
      by_cases ho : id.isEmpty
      · simp [ho, Store.applyAll]
      · rw [if_neg ho]
        cases k' with
        | zero => simp [Store.applyAll]
        | succ k' => simp [Store.applyAll, Store.apply]
    have hsess' : st'.sessions a = some str := by
      have h2 : st' = (st.applyAll (st.decryptPreKeyTrace E pos a m).2.2).1 := by
        have := congrArg (fun y => y.2.1) h
        simp only [Store.decryptPreKey, finish_snd] at this
        exact this.symm
      rw [h2, htrace]
      by_cases ho : id.isEmpty <;> simp [ho, Store.applyAll, Store.apply, hstr, upd]
    have hs1 : st1.sessions a = some str := by rw [hst1.1]; simp
    refine ⟨by rw [hs1, hsess'], by rw [hsess']; simp, ?_⟩
    have hload : st1.load a = .ok (Rec.ofStates s2 []) := by
      rw [Store.load_stored hstr hs1, hrs, hrp]
    have hkept := decryptWithState_kept E (E.rng pos) (respond E SState.new m kp keys) m.message
    rw [hds] at hkept
    have hknows : Knows (Rec.ofStates s2 []) m := by
      refine ⟨s2, by simp [ofStates_state], ?_, ?_⟩
      · rw [hkept.version, hver]; rfl
      · rw [hkept.base]; rfl
    have hproc : process E st1.identities st1.preKeys st1.signedPreKeys a (Rec.ofStates s2 []) m =
        (.ok (some OptU32.empty), Rec.ofStates s2 [], [.saveIdentity a (some m.identityKey)]) := by
      unfold process
      rw [if_neg (by rw [hst1.2]; simp [htrust])]
      unfold processV3
      rw [if_pos (by rw [hasSessionState_iff]; exact hknows)]
    have hdup : (decryptWithState E (E.rng pos2) s2 m.message) = (.err .oldCounter, s2, false) := by
      have hm := C05_no_replay_same_chain E _ s2 (E.rng pos) (E.rng pos2) m.message m.message x' d2
        (WFChains.of_nil (by simp [respond, SState.setSenderChain, SState.new])) hds [] (by simp) ⟨hctr, by simp⟩ rfl rfl rfl
      exact hm
    have hdr : (decryptWithRecord E pos2 (Rec.ofStates s2 []) m.message).1 = .err .noValidSessions := by
      rw [decryptWithRecord_single rfl, ofStates_state, hdup]
    have htr2 : st1.decryptPreKeyTrace E pos2 a m = (.err .noValidSessions, (decryptWithRecord E pos2 (Rec.ofStates s2 []) m.message).2.2,
        [.saveIdentity a (some m.identityKey)]) := by
      simp only [Store.decryptPreKeyTrace, hload, decryptPreKeyRec, hproc]
      cases hx : decryptWithRecord E pos2 (Rec.ofStates s2 []) m.message with
      | mk res y =>
        rw [hx] at hdr
        simp only at hdr
        subst hdr
        rfl
    simp only [Store.decryptPreKey, htr2, finish, Store.applyAll, Store.apply]
    trivial

section
open Toy
set_option maxRecDepth 100000
/-- Non-vacuity of C40: Bob's first message from Alice; all four crash points. -/
example : (dec1.1.map (·.1)) = .ok [104, 105] ∧ bobStore.sessions alice = none ∧ msg1.struct.version = currentVersion ∧
    [0, 1, 2, 3].map (fun k => (((bobStore.applyAll ((bobStore.decryptPreKeyTrace bobEnv 0 alice msg1).2.2.take k)).1.decryptPreKey bobEnv 5 alice msg1).1.map (·.1))) =
      [.ok [104, 105], .ok [104, 105], .err .noValidSessions, .err .noValidSessions] := by decide +kernel
end

end Verif
