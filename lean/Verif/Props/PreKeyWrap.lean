import Verif.Proofs.StoreOps
/-
C17: messages are wrapped as prekey messages until the peer answered.
-/
set_option linter.unusedSimpArgs false
namespace Verif

/-- The calls one party makes towards one address. -/
inductive PeerOp where
  | encrypt (pt : Bytes)
  | decrypt (m : SignalMsg)
  | decryptPreKey (m : PreKeyMsg)

/-- Their results. -/
inductive PeerOut where
  | sent (r : Res CipherMsg)
  | got (r : Res (Bytes × MsgKeys))

def PeerOut.isPanic : PeerOut → Bool
  | .sent .panic => true
  | .got .panic => true
  | _ => false

/-- One call against the stores; `pos` is the position in the random source. -/
def PeerOp.step (E : Env) (a : Addr) (st : Store) (pos : Nat) : PeerOp → PeerOut × Store × Nat
  | .encrypt pt => (.sent (st.encrypt E a pt).1, (st.encrypt E a pt).2, pos)
  | .decrypt m => (.got (st.decrypt E pos a m).1, (st.decrypt E pos a m).2.1, (st.decrypt E pos a m).2.2)
  | .decryptPreKey m => (.got (st.decryptPreKey E pos a m).1, (st.decryptPreKey E pos a m).2.1, (st.decryptPreKey E pos a m).2.2)

/-- A history of calls; a panic ends it. -/
def peerRun (E : Env) (a : Addr) : Store → Nat → List PeerOp → List PeerOut
  | _, _, [] => []
  | st, pos, op :: ops =>
    let x := op.step E a st pos
    if x.1.isPanic then [x.1] else x.1 :: peerRun E a x.2.1 x.2.2 ops

/-- What a prekey message sent to the owner of the bundle must carry. -/
structure Announces (E : Env) (b : Bundle) (base : Key32) (pm : PreKeyMsg) : Prop where
  base : pm.baseKey = base
  preKeyId : pm.struct.preKeyId = b.preKeyId
  signedPreKeyId : pm.struct.signedPreKeyId = b.signedPreKeyId
  identity : pm.identityKey = E.identity.pub
  registrationId : pm.struct.registrationId = E.registrationId

theorem newPreKeyMessage_fields {S : Ser SMStruct} {v : Int} {reg : UInt32} {pid : Option OptU32} {spid : UInt32} {base : Key32}
    {ik : Option Key32} {m : SignalMsg} {pm : PreKeyMsg} (h : newPreKeyMessage S v reg pid spid base ik m = .ok pm) :
    pm.baseKey = base ∧ pm.struct.preKeyId = pid ∧ pm.struct.signedPreKeyId = spid ∧ ik = some pm.identityKey ∧
      pm.struct.registrationId = reg := by
  unfold newPreKeyMessage at h
  cases ik with
  | none => simp at h
  | some k =>
    simp only at h
    cases hs : S.ser m.struct with
    | err e => simp [hs] at h
    | panic => simp [hs] at h
    | ok msg =>
      simp only [hs, Res.bind_ok, newPreKeyMessageFromStruct, decodePoint_serPub] at h
      cases hc : checkVersion v with
      | err e => simp [hc] at h
      | panic => simp [hc] at h
      | ok u =>
        simp only [hc, Res.bind_ok] at h
        cases hn : newSignalMessageFromBytes S msg with
        | err e => simp [hn] at h
        | panic => simp [hn] at h
        | ok m' =>
          simp only [hn, Res.map_ok, Res.ok.injEq] at h
          subst h
          exact ⟨rfl, rfl, rfl, rfl, rfl⟩

/-- The invariant: what the current state of the stored session announces. -/
def WrapInv (E : Env) (b : Bundle) (base : Key32) (answered : Bool) (s : SState) : Prop :=
  if answered then s.pendingPreKey = none
  else s.pendingPreKey = some ⟨b.preKeyId, b.signedPreKeyId, base⟩ ∧ s.localIdentity = some E.identity.pub ∧
    s.localRegistrationId = E.registrationId

def Stored (st : Store) (a : Addr) (P : SState → Prop) : Prop := ∃ r, st.load a = .ok r ∧ P r.state

theorem Stored.of_sessions {st st' : Store} {a : Addr} {P : SState → Prop} (h : Stored st a P) (hs : st'.sessions = st.sessions) : Stored st' a P := by
  obtain ⟨r, h1, h2⟩ := h
  exact ⟨r, by unfold Store.load at h1 ⊢; rw [hs]; exact h1, h2⟩

def PeerOut.success : PeerOut → Bool
  | .got (.ok _) => true
  | _ => false

theorem wrap_step {E : Env} {a : Addr} {b : Bundle} {base : Key32} {st : Store} {answered : Bool}
    (h : Stored st a (WrapInv E b base answered)) (pos : Nat) (op : PeerOp) (hp : (op.step E a st pos).1.isPanic = false) :
    Stored (op.step E a st pos).2.1 a (WrapInv E b base (answered || (op.step E a st pos).1.success)) ∧
    (∀ cm, (op.step E a st pos).1 = .sent (.ok cm) →
      if answered then ∃ m, cm = .signal m else ∃ pm, cm = .preKey pm ∧ Announces E b base pm) := by
  cases op with
  | encrypt pt =>
    simp only [PeerOp.step] at hp ⊢
    cases hr : st.encrypt E a pt with
    | mk res st' =>
      rw [hr] at hp
      cases res with
      | panic => simp [PeerOut.isPanic] at hp
      | err e =>
        rw [Store.encrypt_err hr]
        refine ⟨by simpa [PeerOut.success] using h, by simp⟩
      | ok cm =>
        obtain ⟨r, s', hl, he, hl', -⟩ := Store.encrypt_ok hr
        obtain ⟨r0, hl0, hw⟩ := h
        rw [hl] at hl0; cases hl0
        obtain ⟨sc, body, sm, -, -, -, hs', hcm⟩ := encryptState_ok he
        refine ⟨⟨_, hl', ?_⟩, ?_⟩
        · rw [ofStates_state, hs']
          simpa [PeerOut.success, WrapInv] using hw
        · intro cm' hcm'
          simp only [PeerOut.sent.injEq, Res.ok.injEq] at hcm'
          subst hcm'
          unfold WrapInv at hw
          cases answered with
          | true =>
            simp only [if_true] at hw ⊢
            rcases hcm with ⟨-, rfl⟩ | ⟨pp, pm, hpp, -⟩
            · exact ⟨_, rfl⟩
            · rw [hw] at hpp; simp at hpp
          | false =>
            simp only [Bool.false_eq_true, if_false] at hw ⊢
            rcases hcm with ⟨hn, -⟩ | ⟨pp, pm, hpp, hpm, rfl⟩
            · rw [hw.1] at hn; simp at hn
            · rw [hw.1] at hpp; cases hpp
              rw [hw.2.1, hw.2.2] at hpm
              obtain ⟨h1, h2, h3, h4, h5⟩ := newPreKeyMessage_fields hpm
              exact ⟨pm, rfl, h1, h2, h3, (Option.some.inj h4).symm, h5⟩
  | decrypt m =>
    simp only [PeerOp.step] at hp ⊢
    refine ⟨?_, by simp⟩
    cases hr : st.decrypt E pos a m with
    | mk res y =>
      obtain ⟨st', pos'⟩ := y
      rw [hr] at hp
      cases res with
      | panic => simp [PeerOut.isPanic] at hp
      | err e =>
        rw [C09_decrypt_error_partial E st st' pos pos' a m e hr]
        simpa [PeerOut.success] using h
      | ok x =>
        obtain ⟨r, r', -, -, hd, hl', -⟩ := Store.decrypt_ok hr
        obtain ⟨a0, s, d, s', b0, -, -, h3, h4, -⟩ := decryptWithRecord_ok hd
        refine ⟨_, hl', ?_⟩
        rw [ofStates_state, h4]
        have := decryptWithState_pending E d s m
        rw [h3] at this
        simpa [PeerOut.success, WrapInv, Res.isOk] using this
  | decryptPreKey m =>
    simp only [PeerOp.step] at hp ⊢
    refine ⟨?_, by simp⟩
    cases hr : st.decryptPreKey E pos a m with
    | mk res y =>
      obtain ⟨st', pos'⟩ := y
      rw [hr] at hp
      cases res with
      | panic => simp [PeerOut.isPanic] at hp
      | err e =>
        have := h.of_sessions (C09_decryptPreKey_error_partial E st st' pos pos' a m e hr).1
        simpa [PeerOut.success] using this
      | ok x =>
        obtain ⟨r, r1, r', id, -, -, hd, hl', -⟩ := Store.decryptPreKey_ok hr
        obtain ⟨a0, s, d, s', b0, -, -, h3, h4, -⟩ := decryptWithRecord_ok hd
        refine ⟨_, hl', ?_⟩
        rw [ofStates_state, h4]
        have := decryptWithState_pending E d s m.message
        rw [h3] at this
        simpa [PeerOut.success, WrapInv, Res.isOk] using this

theorem wrap_run {E : Env} {a : Addr} {b : Bundle} {base : Key32} (ops : List PeerOp) {st : Store} {answered : Bool} (pos : Nat)
    (h : Stored st a (WrapInv E b base answered)) (i : Nat) (cm : CipherMsg)
    (hi : (peerRun E a st pos ops)[i]? = some (.sent (.ok cm))) :
    ((answered = true ∨ ∃ j x, j < i ∧ (peerRun E a st pos ops)[j]? = some (.got (.ok x))) → ∃ m, cm = .signal m) ∧
    (answered = false → (∀ j x, j < i → (peerRun E a st pos ops)[j]? ≠ some (.got (.ok x))) → ∃ pm, cm = .preKey pm ∧ Announces E b base pm) := by
  induction ops generalizing st pos answered i with
  | nil => simp [peerRun] at hi
  | cons op ops ih =>
    unfold peerRun at hi ⊢
    simp only at hi ⊢
    by_cases hp : (op.step E a st pos).1.isPanic
    · rw [if_pos hp] at hi
      cases i with
      | zero =>
        simp only [List.getElem?_cons_zero, Option.some.injEq] at hi
        rw [hi] at hp; simp [PeerOut.isPanic] at hp
      | succ i => simp at hi
    · rw [if_neg hp] at hi ⊢
      have hp' : (op.step E a st pos).1.isPanic = false := by simpa using hp
      obtain ⟨h1, h2⟩ := wrap_step h pos op hp'
      cases i with
      | zero =>
        simp only [List.getElem?_cons_zero, Option.some.injEq] at hi
        have := h2 cm hi
        cases answered with
        | true =>
          simp only [if_true] at this
          exact ⟨fun _ => this, by simp⟩
        | false =>
          simp only [Bool.false_eq_true, if_false] at this
          refine ⟨?_, fun _ _ => this⟩
          rintro (h | ⟨j, -, hj, -⟩)
          · simp at h
          · omega
      | succ i =>
        simp only [List.getElem?_cons_succ] at hi
        obtain ⟨i1, i2⟩ := ih _ h1 i hi
        constructor
        · rintro (hh | ⟨j, x, hj, hx⟩)
          · exact i1 (.inl (by simp [hh]))
          · cases j with
            | zero =>
              simp only [List.getElem?_cons_zero, Option.some.injEq] at hx
              exact i1 (.inl (by rw [hx]; simp [PeerOut.success]))
            | succ j =>
              simp only [List.getElem?_cons_succ] at hx
              exact i1 (.inr ⟨j, x, by omega, hx⟩)
        · intro ha hn
          apply i2
          · rw [ha, Bool.false_or]
            cases ho : (op.step E a st pos).1 with
            | sent r => rfl
            | got r =>
              cases r with
              | ok x => exact absurd (by simp [ho]) (hn 0 x (by omega))
              | err e => rfl
              | panic => rfl
          · intro j x hj
            have := hn (j + 1) x (by omega)
            simpa using this

/-- **C17.** After a bundle for `a` has been processed, in every history of Encrypt, Decrypt and prekey-message Decrypt calls for that
address (of any length, with failing or succeeding decrypts): a message returned by Encrypt is a prekey message announcing the
bundle's prekey identifiers, the base key generated for the bundle and the own identity, as long as no decrypt has succeeded, and an
ordinary message from then on. -/
theorem C17_prekey_wrapping (E : Env) (st st1 : Store) (pos pos1 : Nat) (a : Addr) (b : Bundle)
    (hb : st.processBundle E pos a b = (.ok (), st1, pos1)) :
    ∃ base : KeyPair, generateKeyPair E.C (E.rng pos) = .ok base ∧ ∀ (ops : List PeerOp) (i : Nat) (cm : CipherMsg),
      (peerRun E a st1 pos1 ops)[i]? = some (.sent (.ok cm)) →
      ((∃ j x, j < i ∧ (peerRun E a st1 pos1 ops)[j]? = some (.got (.ok x))) → ∃ m, cm = .signal m) ∧
      ((∀ j x, j < i → (peerRun E a st1 pos1 ops)[j]? ≠ some (.got (.ok x))) → ∃ pm, cm = .preKey pm ∧ Announces E b base.pub pm) := by
  obtain ⟨r, spk, r', -, -, hbb, hl', -⟩ := Store.processBundle_ok hb
  obtain ⟨base, bp, ratchet, derived, sending, hg, -, -, -, -, hr', -, -⟩ := buildFromBundle_ok hbb
  refine ⟨base, hg, fun ops i cm hi => ?_⟩
  have hs : Stored st1 a (WrapInv E b base.pub false) := by
    refine ⟨_, hl', ?_⟩
    rw [ofStates_state, hr']
    simp only [Rec.state, Rec.set_cur, Rec.set_heap_same]
    simp [WrapInv, initSenderState, SState.setSenderChain, SState.addReceiverChain]
  obtain ⟨h1, h2⟩ := wrap_run ops pos1 hs i cm hi
  exact ⟨fun h => h1 (.inr h), h2 rfl⟩

section
open Toy
set_option maxRecDepth 100000
def PeerOut.kind : PeerOut → Nat
  | .sent (.ok (.preKey _)) => 1
  | .sent (.ok (.signal _)) => 2
  | .got (.ok _) => 3
  | .got (.err _) => 4
  | _ => 0
/-- Non-vacuity of C17: two sends, a failing decrypt, a send, the reply, a send. -/
example : (emptyStore.processBundle aliceEnv 0 bob bundle).1 = .ok () ∧
    (peerRun aliceEnv bob alice1 2 [.encrypt [104, 105], .encrypt [1, 2, 3], .decrypt msg1.message, .encrypt [4], .decrypt reply1, .encrypt [5]]).map PeerOut.kind =
      [1, 1, 4, 1, 3, 2] := by decide +kernel
end

end Verif
