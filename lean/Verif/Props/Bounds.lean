import Verif.Props.Archive
/-
C06: stored session memory is bounded.  C52: a new session keeps the old one.
-/
set_option linter.unusedSimpArgs false
namespace Verif

/-- At most five receiving chains, each with at most 2000 skipped keys. -/
def SState.Small (s : SState) : Prop := s.receiverChains.length ≤ 5 ∧ ∀ c ∈ s.receiverChains, c.msgKeys.length ≤ 2000

/-- Every state of the record is small and at most forty are archived. -/
def Rec.Small (r : Rec) : Prop := (∀ b, (r.heap b).Small) ∧ r.prev.length ≤ 40

/-- One public mutation of a state (state/record/state_session.go).  `other` covers the setters that do not touch the
receiving chains (SetSenderChain, SetSenderChainKey, SetRootKey, SetVersion, SetPendingKeyExchange, …). -/
inductive StateOp : SState → SState → Prop where
  | addReceiverChain (s : SState) (eph : Key32) (ck : ChainKey) : StateOp s (s.addReceiverChain eph ck)
  | setMessageKeys {s s' : SState} (eph : Key32) (k : MsgKeys) : s.setMessageKeys eph k = .ok s' → StateOp s s'
  | removeMessageKeys (s : SState) (eph : Key32) (ctr : UInt32) : StateOp s (s.removeMessageKeys eph ctr).2
  | setReceiverChainKey {s s' : SState} (eph : Key32) (ck : ChainKey) : s.setReceiverChainKey eph ck = .ok s' → StateOp s s'
  | other {s s' : SState} : s'.receiverChains = s.receiverChains → StateOp s s'

/-- One public operation on a record: mutators of its states and of the record, serialising and reloading, and the
cipher and builder calls (whatever their outcome). -/
inductive RecOp : Rec → Rec → Prop where
  | state (r : Rec) (b : Nat) (s' : SState) : StateOp (r.heap b) s' → RecOp r (r.set b s')
  | archive (r : Rec) : RecOp r r.archiveCurrentState
  | promote (r : Rec) (b : Nat) : RecOp r (r.promote b)
  | reload {r r' : Rec} {st : SessionStruct} : r.toStruct = .ok st → Rec.ofStruct st = .ok r' → RecOp r r'
  | encrypt (E : Env) (a : Addr) (r : Rec) (pt : Bytes) : RecOp r (encryptRec E a r pt).2.1
  | decrypt (E : Env) (pos : Nat) (r : Rec) (m : SignalMsg) : RecOp r (decryptWithRecord E pos r m).2.1
  | preKeyMessage (E : Env) (pk spk : UInt32 → Option IdKeyPair) (r : Rec) (m : PreKeyMsg) : RecOp r (processV3 E pk spk r m).2
  | bundle (E : Env) (pos : Nat) (a : Addr) (r : Rec) (b : Bundle) (spk : Key32) : RecOp r (buildFromBundle E pos a r b spk).2.1

/-- Records reachable from a new one. -/
inductive Reachable : Rec → Prop where
  | new : Reachable Rec.new
  | step {r r' : Rec} : Reachable r → RecOp r r' → Reachable r'

theorem addReceiverChain_small {s : SState} (h : s.Small) (eph : Key32) (ck : ChainKey) : (s.addReceiverChain eph ck).Small := by
  refine ⟨?_, fun c hc => ?_⟩
  · simp only [SState.addReceiverChain]
    have := h.1
    have e : maxReceiverChains = 5 := rfl
    split
    · simp; omega
    · rename_i hh; simp at hh ⊢; omega
  · rcases addReceiverChain_mem hc with hc | rfl
    · exact h.2 c hc
    · simp

theorem modifyChain_small {s : SState} (h : s.Small) (eph : Key32) (f : Chain → Chain)
    (hf : ∀ c : Chain, c.msgKeys.length ≤ 2000 → (f c).msgKeys.length ≤ 2000) : (s.modifyChain eph f).Small := by
  refine ⟨by simp only [SState.modifyChain, length_modifyFirst]; exact h.1, fun c hc => ?_⟩
  rcases mem_modifyFirst hc with hc | ⟨b, hb, -, rfl⟩
  · exact h.2 c hc
  · exact hf b (h.2 b hb)

theorem StateOp.small {s s' : SState} (hop : StateOp s s') (h : s.Small) : s'.Small := by
  cases hop with
  | addReceiverChain eph ck => exact addReceiverChain_small h eph ck
  | setMessageKeys eph k hk =>
    unfold SState.setMessageKeys at hk
    split at hk
    · simp at hk
    · cases hk
      apply modifyChain_small h
      intro c hc
      simp only [Chain.addMsgKeys]
      have e : maxMessageKeys = 2000 := rfl
      split
      · simp; omega
      · rename_i hh; simp at hh ⊢; omega
  | removeMessageKeys eph ctr =>
    unfold SState.removeMessageKeys
    split
    · exact h
    · simp only
      split
      · exact h
      · apply modifyChain_small h
        intro c hc
        simp only
        exact Nat.le_trans (List.length_eraseIdx_le _ _) hc
  | setReceiverChainKey eph ck hk =>
    unfold SState.setReceiverChainKey at hk
    split at hk
    · simp at hk
    · cases hk
      exact modifyChain_small h _ _ (fun _ hc => hc)
  | other hk => unfold SState.Small; rw [hk]; exact h

theorem recv_small (C : Crypto) (c : Chain) (ctr : UInt32) (h : c.msgKeys.length ≤ 2000) : (c.recv C ctr).2.msgKeys.length ≤ 2000 := by
  unfold Chain.recv
  split
  · split
    · exact Nat.le_trans (List.length_eraseP_le) h
    · exact h
  · split
    · exact h
    · simp only
      rw [pushSkipped_eq _ _ _ _ h]
      exact lastN_length _ _

theorem decryptWithState_small (E : Env) (d : Option Key32) (s : SState) (m : SignalMsg) (h : s.Small) :
    (decryptWithState E d s m).2.1.Small := by
  rcases decryptWithState_cases E d s m with ⟨res, d', he, -, -⟩ | ⟨s1, c, d', hc, -, -, hs1, he⟩
  · rw [he]; exact h
  · have h1 : s1.Small := by
      rcases hs1 with ⟨rfl, -⟩ | ⟨-, -, root, sc, p, r, -, -, -, -, rfl⟩
      · exact h
      · have := addReceiverChain_small h m.senderRatchetKey (kdfRoot E.C root (E.C.dh m.senderRatchetKey p)).chain
        exact this
    rw [he]
    cases hr : c.recv E.C m.struct.counter with
    | mk r c' =>
      cases r with
      | err e => exact h1
      | panic => exact h1
      | ok mk =>
        have hcm : c'.msgKeys.length ≤ 2000 := by
          have := recv_small E.C c m.struct.counter (h1.2 c (receiverChain_mem hc).1)
          rw [hr] at this; exact this
        have := modifyChain_small h1 m.senderRatchetKey (fun _ => c') (fun _ _ => hcm)
        simp only
        generalize Res.isOk _ = b
        cases b <;> exact this

theorem Rec.set_small {r : Rec} (h : r.Small) (b : Nat) {s : SState} (hs : s.Small) : (r.set b s).Small := by
  refine ⟨fun x => ?_, h.2⟩
  rw [Rec.set_heap]
  split
  · exact hs
  · exact h.1 x

theorem Rec.promote_small {r : Rec} (h : r.Small) (b : Nat) : (r.promote b).Small := by
  refine ⟨h.1, ?_⟩
  have := h.2
  simp only [Rec.promote]
  have e : archivedStatesMaxLength = 40 := rfl
  split
  · simp; exact this
  · rename_i hh; simp at hh ⊢; omega

theorem SState.new_small : SState.new.Small := ⟨by simp [SState.new], by simp [SState.new]⟩

theorem Rec.archive_small {r : Rec} (h : r.Small) : r.archiveCurrentState.Small := by
  apply Rec.promote_small
  refine ⟨fun x => ?_, h.2⟩
  simp only
  split
  · exact SState.new_small
  · exact h.1 x

theorem afterFail_small (E : Env) (m : SignalMsg) (l : List Nat) (r : Rec) (pos : Nat) (h : r.Small) : (afterFail E m l r pos).1.Small := by
  induction l generalizing r pos with
  | nil => exact h
  | cons a l ih => exact ih _ _ (Rec.set_small h a (decryptWithState_small _ _ _ _ (h.1 a)))

theorem RecOp.small {r r' : Rec} (hop : RecOp r r') (h : r.Small) : r'.Small := by
  cases hop with
  | state _ b s' hs => exact Rec.set_small h b (hs.small (h.1 b))
  | archive => exact Rec.archive_small h
  | promote _ b => exact Rec.promote_small h b
  | @reload _ _ st h1 h2 =>
    rw [Rec.ofStruct_toStruct h1] at h2
    cases h2
    refine ⟨fun b => ?_, ?_⟩
    · simp only [Rec.ofStates]
      cases hx : (r.state :: r.prevStates)[b]? with
      | none => exact SState.new_small
      | some s =>
        rcases List.mem_cons.1 (List.mem_of_getElem? hx) with rfl | hm
        · exact h.1 _
        · obtain ⟨c, -, rfl⟩ := List.mem_map.1 hm
          exact h.1 _
    · simp [Rec.ofStates, Rec.prevStates]; exact h.2
  | encrypt E a _ pt =>
    have hs : ∀ x, (encryptState E r.state pt).2 = x → x.Small := by
      rintro _ rfl
      cases he : encryptState E r.state pt with
      | mk res s' =>
        cases hres : res.isOk with
        | false => rw [encryptState_fail he hres]; exact h.1 _
        | true =>
          cases res with
          | ok cm =>
            obtain ⟨sc, body, sm, -, -, -, rfl, -⟩ := encryptState_ok he
            exact h.1 r.cur
          | err e => simp [Res.isOk] at hres
          | panic => simp [Res.isOk] at hres
    unfold encryptRec
    split <;> rename_i hh <;> exact Rec.set_small h _ (hs _ (by rw [hh]))
  | decrypt E pos _ m =>
    rcases decryptWithRecord_cases E pos r m with ⟨x, s', d, h1, h2⟩ | ⟨pre, a, post, x, s', d, r0, pos0, h0, h1, h2, h3, h4⟩ |
      ⟨-, h2⟩ | ⟨r', pos', h2, l, -, rfl⟩
    · rw [h2]
      refine Rec.set_small h _ ?_
      have := decryptWithState_small E (E.rng pos) r.state m (h.1 _)
      rw [h1] at this; exact this
    · rw [h4]
      have hr0 := afterFail_small E m (r.cur :: pre) r pos h
      have hf := afterFail_frame E m (r.cur :: pre) r pos
      rw [← h2] at hr0 hf
      simp only at hr0 hf
      have hs' : s'.Small := by
        have := decryptWithState_small E (E.rng pos0) (r0.heap a) m (hr0.1 a)
        rw [h3] at this; exact this
      refine Rec.promote_small ?_ a
      refine ⟨(Rec.set_small hr0 a hs').1, ?_⟩
      simp only [hf.2.1]
      have := h.2
      rw [List.length_append, List.length_drop, List.length_eraseIdx]
      rw [h0] at *
      simp only [List.length_append, List.length_cons] at *
      split <;> omega
    · rw [h2]; exact afterFail_small _ _ _ _ _ h
    · rw [h2]; exact afterFail_small _ _ _ _ _ h
  | preKeyMessage E pk spk _ m =>
    have hr1 : (if r.fresh then r else r.archiveCurrentState).Small := by
      split
      · exact h
      · exact Rec.archive_small h
    unfold processV3
    split
    · exact h
    · split
      · exact h
      · simp only
        split
        · exact h
        · exact h
        · split
          · exact hr1
          · exact hr1
          · exact Rec.set_small hr1 _ (hr1.1 _)
  | bundle E pos a _ b spk =>
    have hr1 : (if r.fresh then r else r.archiveCurrentState).Small := by
      split
      · exact h
      · exact Rec.archive_small h
    unfold buildFromBundle
    split
    · exact h
    · exact h
    · simp only
      split
      · exact hr1
      · split
        · exact hr1
        · exact hr1
        · split
          · exact hr1
          · exact hr1
          · split
            · exact hr1
            · exact hr1
            · refine Rec.set_small hr1 _ ?_
              rename_i derived _ _ _ _ _ _
              exact addReceiverChain_small (hr1.1 _) _ _

/-- **C06.** In every record reachable from a new one through the public operations — in any order and number, including
serialisation and reload, and with any messages, bundles, keys and outcomes — each state keeps at most 5 receiving chains,
each receiving chain at most 2000 skipped message keys, and at most 40 states are archived. -/
theorem C06_bounded (r : Rec) (h : Reachable r) :
    (∀ s ∈ r.state :: r.prevStates, s.receiverChains.length ≤ 5 ∧ ∀ c ∈ s.receiverChains, c.msgKeys.length ≤ 2000) ∧
    r.prevStates.length ≤ 40 := by
  have hs : r.Small := by
    induction h with
    | new => exact ⟨fun _ => SState.new_small, by simp [Rec.new]⟩
    | step _ hop ih => exact hop.small ih
  refine ⟨fun s hm => ?_, by simp [Rec.prevStates]; exact hs.2⟩
  rcases List.mem_cons.1 hm with rfl | hm
  · exact hs.1 _
  · obtain ⟨c, -, rfl⟩ := List.mem_map.1 hm
    exact hs.1 c

section
open Toy
set_option maxRecDepth 100000
/-- Non-vacuity of C06: Bob's record after the first prekey message is reachable and has a receiving chain. -/
example : Reachable (decryptWithRecord bobEnv 0 (processV3 bobEnv bobStore.preKeys bobStore.signedPreKeys Rec.new msg1).2 msg2.message).2.1 :=
  .step (.step .new (.preKeyMessage bobEnv _ _ _ msg1)) (.decrypt bobEnv 0 _ msg2.message)
example : (decryptWithRecord bobEnv 0 (processV3 bobEnv bobStore.preKeys bobStore.signedPreKeys Rec.new msg1).2
    msg2.message).2.1.state.receiverChains.map (fun c => c.msgKeys.length) = [1] := by decide +kernel
end

/-! ### C52 -/

/-- The states archived when a current state is archived: the newest forty. -/
theorem archive_states {r : Rec} (hlt : ∀ b ∈ r.cur :: r.prev, b < r.next) (hlen : r.prev.length ≤ 40) (s : SState) :
    (r.archiveCurrentState.set r.archiveCurrentState.cur s).prevStates = (r.state :: r.prevStates).take 40 ∧
    (r.archiveCurrentState.set r.archiveCurrentState.cur s).state = s := by
  constructor
  · have hheap : ∀ b ∈ r.cur :: r.prev, (r.archiveCurrentState.set r.archiveCurrentState.cur s).heap b = r.heap b := by
      intro b hb
      have := hlt b hb
      simp only [Rec.archiveCurrentState, Rec.promote, Rec.set]
      rw [if_neg (by omega), if_neg (by omega)]
    have hp : (r.archiveCurrentState.set r.archiveCurrentState.cur s).prev = (r.cur :: r.prev).take 40 := by
      simp only [Rec.archiveCurrentState, Rec.promote, Rec.set]
      have e : archivedStatesMaxLength = 40 := rfl
      split
      · rename_i hh
        simp only [List.length_cons] at hh
        have : r.prev.length = 40 := by omega
        rw [List.dropLast_eq_take]; simp [this]
      · rename_i hh
        simp only [List.length_cons] at hh
        rw [List.take_of_length_le (by simp; omega)]
    have hst : r.state :: r.prevStates = (r.cur :: r.prev).map r.heap := rfl
    rw [Rec.prevStates, hp, hst, ← List.map_take]
    apply List.map_congr_left
    intro b hb
    exact hheap b (List.mem_of_mem_take hb)
  · simp [Rec.state, Rec.archiveCurrentState, Rec.promote, Rec.set]

theorem ofStates_lt (s : SState) (ps : List SState) : ∀ b ∈ (Rec.ofStates s ps).cur :: (Rec.ofStates s ps).prev, b < (Rec.ofStates s ps).next := by
  intro b hb
  simp only [Rec.ofStates, List.mem_cons, List.mem_map, List.mem_range] at hb ⊢
  rcases hb with rfl | ⟨x, hx, rfl⟩ <;> omega

/-- **C52 (serialising store).** Processing a bundle for an address that already has a session keeps the old session: in the
stored session the former current state is the newest archived one, unchanged, followed by the states archived before
(the oldest being dropped beyond forty). -/
theorem C52_bundle_archives_partial (E : Env) (st st' : Store) (pos pos' : Nat) (a : Addr) (b : Bundle) (r r' : Rec) (s0 : SessionStruct)
    (hs : st.sessions a = some s0) (hl : st.load a = .ok r) (hlen : r.prevStates.length ≤ 40)
    (h : st.processBundle E pos a b = (.ok (), st', pos')) (hl' : st'.load a = .ok r') :
    r'.prevStates = (r.state :: r.prevStates).take 40 := by
  have hr : ∃ s ps, r = Rec.ofStates s ps := by
    unfold Store.load at hl
    rw [hs] at hl
    simp only at hl
    cases ho : Rec.ofStruct s0 with
    | err e => simp [ho] at hl
    | panic => simp [ho] at hl
    | ok r0 =>
      simp only [ho, Res.ok.injEq] at hl
      subst hl
      unfold Rec.ofStruct at ho
      cases h1 : seqRes (s0.previous.map SState.ofStruct) with
      | err e => simp [h1] at ho
      | panic => simp [h1] at ho
      | ok ps =>
        simp only [h1, Res.bind_ok] at ho
        cases h2 : SState.ofStruct s0.state with
        | err e => simp [h2] at ho
        | panic => simp [h2] at ho
        | ok s => simp only [h2, Res.map_ok, Res.ok.injEq] at ho; exact ⟨s, ps, ho.symm⟩
  obtain ⟨s, ps, rfl⟩ := hr
  rw [ofStates_prev] at hlen
  simp only [Store.processBundle, Prod.mk.injEq, finish_snd, finish_fst] at h
  obtain ⟨h1, h2, -⟩ := h
  have hb : (st.applyAll (st.processBundleTrace E pos a b).2.2).2 = true := by
    apply Decidable.by_contra
    intro hne
    simp [hne] at h1
  rw [hb] at h1
  simp only [if_true] at h1
  unfold Store.processBundleTrace at h1 h2 hb
  cases hc : checkBundle E st.identities a b with
  | err e => simp [hc] at h1
  | panic => simp [hc] at h1
  | ok spk =>
    simp only [hc, hl] at h1 h2 hb
    cases hbb : buildFromBundle E pos a (Rec.ofStates s ps) b spk with
    | mk res y =>
      obtain ⟨r2, p2, effs⟩ := y
      rw [hbb] at h1 h2 hb
      simp only at h1 h2 hb
      subst h1
      have : ∃ x, r2 = (Rec.ofStates s ps).archiveCurrentState.set (Rec.ofStates s ps).archiveCurrentState.cur x ∧
          effs = [.storeSession a r2, .saveIdentity a (some b.identityKey)] := by
        unfold buildFromBundle at hbb
        have hf : (Rec.ofStates s ps).fresh = false := rfl
        simp only [hf, Bool.false_eq_true, if_false] at hbb
        split at hbb
        · simp at hbb
        · simp at hbb
        · split at hbb
          · simp at hbb
          · split at hbb
            · simp at hbb
            · simp at hbb
            · split at hbb
              · simp at hbb
              · simp at hbb
              · split at hbb
                · simp at hbb
                · simp at hbb
                · simp only [Prod.mk.injEq] at hbb
                  obtain ⟨-, rfl, -, rfl⟩ := hbb
                  exact ⟨_, rfl, rfl⟩
      obtain ⟨x, hr2, rfl⟩ := this
      have ha := archive_states (ofStates_lt s ps) (by simpa [Rec.ofStates] using hlen) x
      rw [← hr2] at ha
      have hst : ∃ str, r2.toStruct = .ok str := by
        simp only [Store.applyAll, Store.apply] at hb
        cases ht : r2.toStruct with
        | ok str => exact ⟨str, rfl⟩
        | err e => simp [ht] at hb
        | panic => simp [ht] at hb
      obtain ⟨str, hstr⟩ := hst
      have hss : st'.sessions a = some str := by
        rw [← h2]
        simp [Store.applyAll, Store.apply, hstr, upd]
      rw [Store.load_stored hstr hss] at hl'
      cases hl'
      rw [ofStates_prev, ha.1]

section
open Toy
set_option maxRecDepth 100000
/-- Non-vacuity of C52. -/
example : (recOf alice5 bob).prevStates = [stateOf enc4.2 bob] ∧ (recOf enc4.2 bob).prevStates.length ≤ 40 := by decide +kernel

/-- The live store Alice starts from. -/
def liveEmpty : LiveStore := ⟨fun _ => none, fun _ => none, fun _ => none, fun _ => none⟩
def liveA1 : LiveStore := (liveEmpty.processBundle aliceEnv 0 bob bundle).2.1
def liveA2 : LiveStore := (liveA1.encrypt aliceEnv bob [104, 105]).2
def liveA3 : LiveStore := (liveA2.processBundle aliceEnv 2 bob bundle2).2.1

/-- **C52 is false for a store that hands out the live object** (tests/stores.go): the record stays "fresh" for ever, so a
second bundle overwrites the current state instead of archiving it.  A reply to the first session that could be
decrypted before is lost. -/
theorem C52_live_false : ∃ (E : Env) (st : LiveStore) (pos : Nat) (a : Addr) (b : Bundle) (m : SignalMsg),
    (st.decrypt E pos a m).1.isOk = true ∧ (st.processBundle E pos a b).1 = .ok () ∧
    ((st.processBundle E pos a b).2.1.load a).prevStates = [] ∧
    ((st.processBundle E pos a b).2.1.decrypt E (st.processBundle E pos a b).2.2 a m).1 = .err .noValidSessions :=
  ⟨aliceEnv, liveA2, 2, bob, bundle2, reply1, by decide +kernel, by decide +kernel, by decide +kernel, by decide +kernel⟩
end

end Verif
