import Verif.Model.LiveCrowd
import Verif.Props.Robust
/-
C91 with the store of tests/stores.go, which hands out the stored object.
-/
namespace Verif

/-- A record in a live store: inserted by `LoadSession` and untouched, or set up by the library. -/
def Rec.Sound (r : Rec) : Prop := r = Rec.new ∨ r.Whole

theorem new_set : Rec.new.set Rec.new.cur SState.new = Rec.new := by
  unfold Rec.set Rec.new
  congr
  funext x
  split <;> rfl

/-- The state that a new session is written over. -/
theorem over_keys {r : Rec} (h : r.Sound) : ∀ c ∈ (if r.fresh then r else r.archiveCurrentState).state.receiverChains, KeysFit c := by
  by_cases hf : r.fresh = true
  · rw [if_pos hf]
    rcases h with rfl | h
    · intro c hc; exact absurd hc List.not_mem_nil
    · exact (h.states r.cur (List.mem_cons_self ..)).keys
  · rw [if_neg hf]
    intro c hc
    have : r.archiveCurrentState.state = SState.new := by simp [Rec.archiveCurrentState, Rec.promote, Rec.state]
    rw [this] at hc
    exact absurd hc List.not_mem_nil

theorem Rec.Sound.start {r : Rec} (h : r.Sound) {s : SState} (hs : s.Whole) :
    ((if r.fresh then r else r.archiveCurrentState).set (if r.fresh then r else r.archiveCurrentState).cur s).Whole := by
  by_cases hf : r.fresh = true
  · rcases h with h | h
    · exact Rec.Built.start (.inl h) hs
    · rw [if_pos hf]; exact h.set _ hs
  · rcases h with h | h
    · exact Rec.Built.start (.inl h) hs
    · exact Rec.Built.start (.inr ⟨by simpa using hf, h⟩) hs

theorem whole_over {s : SState} (h1 : s.localIdentity ≠ none) (h2 : s.remoteIdentity ≠ none) (h3 : s.rootKey ≠ none) (h4 : s.senderBaseKey ≠ none)
    {pub p : Key32} {ck : ChainKey} (h5 : s.senderChain = some ⟨⟨pub, some p⟩, ck, []⟩) (hv : s.version = currentVersion) (hc : ∀ c ∈ s.receiverChains, KeysFit c) : s.Whole := by
  refine ⟨⟨h1, h2, h3, h4, by simp [h5]⟩, hv, ?_, hc⟩
  intro sc hsc
  rw [h5] at hsc
  cases hsc
  simp

/-- Processing a prekey message on the stored object: it is left alone, or set up. -/
theorem processV3_sound (E : Env) (pk spk : UInt32 → Option IdKeyPair) {r : Rec} (m : PreKeyMsg) (h : r.Sound) :
    (∃ e, processV3 E pk spk r m = (.err e, r)) ∨
    (processV3 E pk spk r m = (.panic, r) ∧ ¬ Knows r m ∧ spk m.struct.signedPreKeyId = none) ∨
    (∃ o r1, processV3 E pk spk r m = (.ok o, r1) ∧ r1.Whole ∧
      (o = none → ¬ Knows r m ∧ (m.struct.preKeyId = none ∨ ∃ i, m.struct.preKeyId = some i ∧ i.value = mediumMaxValue))) := by
  unfold processV3
  by_cases hk : r.hasSessionState m.struct.version (serPub m.baseKey) = true
  · rw [if_pos hk]
    have hkn := (hasSessionState_iff r m).1 hk
    refine .inr (.inr ⟨_, _, rfl, ?_, by simp⟩)
    rcases h with rfl | h
    · exfalso
      obtain ⟨s, hs, -, hb⟩ := hkn
      have : s = SState.new := by simpa [Rec.new, Rec.state, Rec.prevStates] using hs
      subst this
      simp [SState.new] at hb
    · exact h
  · rw [if_neg hk]
    have hkn : ¬ Knows r m := fun hh => hk ((hasSessionState_iff r m).2 hh)
    cases hs : spk m.struct.signedPreKeyId with
    | none => exact .inr (.inl ⟨rfl, hkn, rfl⟩)
    | some sp =>
      have key : ∀ ot : Option Key32, ∃ keys, calculateReceiverSession E.C
          { ourIdentity := E.identity, ourSignedPreKeyPriv := sp.priv, ourOneTimePriv := ot, theirBase := m.baseKey, theirIdentity := m.identityKey } = .ok keys :=
        fun ot => (calculateReceiverSession_ok E.C _).imp fun _ h => h.1
      have hov := over_keys h
      cases hp : m.struct.preKeyId with
      | none =>
        obtain ⟨keys, hkeys⟩ := key none
        simp only [hkeys]
        refine .inr (.inr ⟨_, _, rfl, ?_, fun _ => ⟨hkn, .inl trivial⟩⟩)
        exact h.start (whole_over (by simp [SState.setSenderChain]) (by simp [SState.setSenderChain]) (by simp) (by simp) rfl rfl hov)
      | some id =>
        simp only
        cases hpk : pk id.value with
        | none => exact .inl ⟨_, rfl⟩
        | some kp =>
          obtain ⟨keys, hkeys⟩ := key (some kp.priv)
          simp only [hkeys]
          refine .inr (.inr ⟨_, _, rfl, ?_, fun ho => ⟨hkn, ?_⟩⟩)
          · exact h.start (whole_over (by simp [SState.setSenderChain]) (by simp [SState.setSenderChain]) (by simp) (by simp) rfl rfl hov)
          · by_cases hv : id.value = mediumMaxValue
            · exact .inr ⟨id, rfl, hv⟩
            · rw [if_neg hv] at ho; cases ho

/-- Setting up a session from a bundle on the stored object, when the random source works. -/
theorem buildFromBundle_sound (E : Env) (hr : ∀ n, E.rng n ≠ none) (pos : Nat) (a : Addr) {r : Rec} (b : Bundle) (spk : Key32) (h : r.Sound) :
    (buildFromBundle E pos a r b spk).1 = .ok () ∧ (buildFromBundle E pos a r b spk).2.1.Whole ∧
    (buildFromBundle E pos a r b spk).2.2.2 = [.storeSession a (buildFromBundle E pos a r b spk).2.1, .saveIdentity a (some b.identityKey)] := by
  unfold buildFromBundle
  cases hd : E.rng pos with
  | none => exact absurd hd (hr _)
  | some d =>
    have hg : ∀ d : Key32, generateKeyPair E.C (some d) = .ok ⟨E.C.basePub (clamp d), some (clamp d)⟩ := fun _ => rfl
    simp only [hg]
    obtain ⟨derived, hder, -⟩ := calculateSenderSession_ok E.C { ourIdentity := E.identity, ourBasePriv := clamp d, theirIdentity := b.identityKey, theirSignedPreKey := spk, theirOneTime := b.preKeyPublic }
    simp only [hder]
    cases hd2 : E.rng (pos + 1) with
    | none => exact absurd hd2 (hr _)
    | some d2 =>
      simp only [hg]
      rw [createChain_eq E.C derived.root spk ⟨E.C.basePub (clamp d2), some (clamp d2)⟩ rfl]
      refine ⟨rfl, ?_, rfl⟩
      have hov := over_keys h
      refine h.start (whole_over (pub := E.C.basePub (clamp d2)) (p := clamp d2) ?_ ?_ ?_ ?_ rfl rfl ?_)
      · simp [initSenderState, SState.setSenderChain, SState.addReceiverChain]
      · simp [initSenderState, SState.setSenderChain, SState.addReceiverChain]
      · simp [initSenderState]
      · simp [initSenderState]
      · intro c hc
        rcases addReceiverChain_mem (show c ∈ (SState.addReceiverChain _ spk derived.chain).receiverChains from hc) with hc | rfl
        · exact hov c hc
        · intro k hk; exact absurd hk List.not_mem_nil

/-- Every session object of the store is sound. -/
def LiveStore.Sound (st : LiveStore) : Prop := ∀ a r, st.sessions a = some r → r.Sound

theorem LiveStore.Sound.load {st : LiveStore} (h : st.Sound) (a : Addr) : (st.load a).Sound := by
  unfold LiveStore.load
  cases hs : st.sessions a with
  | none => exact .inl rfl
  | some r => exact h a r hs

theorem LiveStore.Sound.upd {st : LiveStore} (h : st.Sound) (a : Addr) {r : Rec} (hr : r.Sound) : LiveStore.Sound { st with sessions := upd st.sessions a (some r) } := by
  intro b r' hb
  by_cases hba : b = a
  · subst hba; simp only [Verif.upd, if_true, Option.some.injEq] at hb; rw [← hb]; exact hr
  · simp only [Verif.upd, if_neg hba] at hb; exact h b r' hb

theorem foldl_sound : ∀ {effs : List Effect} {st : LiveStore}, st.Sound → (∀ a r, Effect.storeSession a r ∈ effs → r.Sound) → (effs.foldl LiveStore.apply st).Sound
  | [], _, h, _ => h
  | e :: effs, st, h, he => by
    refine foldl_sound (effs := effs) (st := st.apply e) ?_ (fun a r hm => he a r (List.mem_cons_of_mem _ hm))
    cases e with
    | saveIdentity a k => exact h
    | removePreKey id => exact h
    | storeSession a r => exact h.upd a (he a r (List.mem_cons_self ..))

theorem live_finish_sound {st : LiveStore} (h : st.Sound) (a : Addr) {r : Rec} (hr : r.Sound) {effs : List Effect} (he : ∀ a r, Effect.storeSession a r ∈ effs → r.Sound) :
    (st.finish a r effs).Sound := foldl_sound (h.upd a hr) he

theorem live_encrypt_sound {E : Env} (hS : StdSM E.S) {st : LiveStore} (h : st.Sound) (a : Addr) (pt : Bytes) :
    (st.encrypt E a pt).2.Sound ∧
    (∀ r, st.sessions a = some r → r.state.senderChain ≠ none → pt.length < 2 ^ 63 → ∃ cm, (st.encrypt E a pt).1 = .ok cm) := by
  have hl := h.load a
  unfold LiveStore.encrypt
  rcases hl with hl | hl
  · rw [hl]
    have he : encryptRec E a Rec.new pt = (.panic, Rec.new.set Rec.new.cur SState.new, []) := rfl
    simp only [he, new_set]
    refine ⟨live_finish_sound h a (.inl rfl) (by simp), fun r hr hsc => ?_⟩
    simp only [LiveStore.load, hr, Option.getD_some] at hl
    subst hl
    exact absurd rfl hsc
  · have h2 := encryptRec_whole (E := E) (a := a) (pt := pt) hl
    have hst : ∀ b r', Effect.storeSession b r' ∈ (encryptRec E a (st.load a) pt).2.2 → r'.Sound := by
      intro b r' hm
      revert hm h2
      unfold encryptRec
      split <;> simp
      intro hw _ hr; rw [hr]; exact .inr hw
    refine ⟨live_finish_sound h a (.inr h2) hst, fun r hr _ hpt => ?_⟩
    have hcur := hl.states _ (List.mem_cons_self ..)
    obtain ⟨cm, s', he⟩ := encryptState_total hS (s := (st.load a).state) hcur.version hcur.init pt hpt
    refine ⟨cm, ?_⟩
    show (encryptRec E a (st.load a) pt).1 = .ok cm
    unfold encryptRec
    rw [he]

theorem live_decrypt_sound {E : Env} {st : LiveStore} (h : st.Sound) (pos : Nat) (a : Addr) (m : SignalMsg) :
    (st.decrypt E pos a m).2.1.Sound ∧ (StdSM E.S → newSignalMessageFromStruct m.struct = .ok m → (st.decrypt E pos a m).1 = .panic → Jagged m) := by
  unfold LiveStore.decrypt
  cases hs : st.sessions a with
  | none => exact ⟨h, fun _ _ hp => by cases hp⟩
  | some r =>
    simp only
    rcases h a r hs with rfl | hw
    · have he : decryptRec E pos a Rec.new m = (.err .noValidSessions, Rec.new.set Rec.new.cur SState.new, pos, []) := rfl
      simp only [he, new_set]
      exact ⟨live_finish_sound h a (.inl rfl) (by simp), fun _ _ hp => by cases hp⟩
    · have h2 : (decryptRec E pos a r m).2.1.Whole := by
        have := decryptWithRecord_whole E m pos hw
        revert this
        unfold decryptRec
        generalize decryptWithRecord E pos r m = g
        obtain ⟨g, r2, p2⟩ := g
        cases g <;> exact id
      refine ⟨live_finish_sound h a (.inr h2) (fun _ _ hm => .inr (decryptRec_stored hw hm)), fun hS hm hp => ?_⟩
      refine Classical.byContradiction fun hj => decryptWithRecord_no_panic E hS hm hj pos hw ?_
      replace hp : (decryptRec E pos a r m).1 = .panic := hp
      unfold decryptRec at hp
      generalize decryptWithRecord E pos r m = g at hp ⊢
      obtain ⟨g, r2, p2⟩ := g
      cases g <;> simp_all

theorem live_decryptPreKey_sound {E : Env} {st : LiveStore} (h : st.Sound) (pos : Nat) (a : Addr) (m : PreKeyMsg) :
    (st.decryptPreKey E pos a m).2.1.Sound ∧
    (StdSM E.S → newSignalMessageFromStruct m.message.struct = .ok m.message → (st.decryptPreKey E pos a m).1 = .panic →
      Jagged m.message ∨ ¬ Knows (st.load a) m ∧ E.trusted st.identities a m.identityKey = true ∧
        (st.signedPreKeys m.struct.signedPreKeyId = none ∨ m.struct.preKeyId = none ∨ ∃ o, m.struct.preKeyId = some o ∧ o.value = mediumMaxValue)) := by
  have hl := h.load a
  unfold LiveStore.decryptPreKey
  generalize st.load a = r at hl ⊢
  have fin : ∀ (res : Res (Bytes × MsgKeys)) (r1 : Rec) (p1 : Nat) (effs : List Effect), r1.Sound → (∀ b r', Effect.storeSession b r' ∈ effs → r'.Sound) →
      (st.finish a r1 effs).Sound := fun _ _ _ _ h1 h2 => live_finish_sound h a h1 h2
  unfold decryptPreKeyRec process
  cases ht : E.trusted st.identities a m.identityKey with
  | false =>
    simp only [if_true]
    exact ⟨live_finish_sound h a hl (by simp), fun _ _ hp => by cases hp⟩
  | true =>
    simp only [Bool.true_eq_false, if_false]
    rcases processV3_sound E st.preKeys st.signedPreKeys m hl with ⟨e, hv⟩ | ⟨hv, q1, q2⟩ | ⟨o, r1, hv, hw1, hnone⟩
    · simp only [hv]
      exact ⟨live_finish_sound h a hl (by simp), fun _ _ hp => by cases hp⟩
    · simp only [hv]
      exact ⟨live_finish_sound h a hl (by simp), fun _ _ _ => .inr ⟨q1, trivial, .inl q2⟩⟩
    · simp only [hv]
      have hw2 := decryptWithRecord_whole E m.message pos hw1
      have hnp : StdSM E.S → newSignalMessageFromStruct m.message.struct = .ok m.message → ¬ Jagged m.message → (decryptWithRecord E pos r1 m.message).1 ≠ .panic :=
        fun hS hm hj => decryptWithRecord_no_panic E hS hm hj pos hw1
      generalize decryptWithRecord E pos r1 m.message = g at hw2 hnp
      obtain ⟨g, r2, pos2⟩ := g
      have hstore : ∀ (l : List Effect), (∀ b r', Effect.storeSession b r' ∈ l → r' = r2) → (st.finish a r2 l).Sound :=
        fun l hl => live_finish_sound h a (.inr hw2) (fun b r' hr => by rw [hl b r' hr]; exact .inr hw2)
      cases g with
      | err e => exact ⟨hstore _ (by simp), fun _ _ hp => by cases hp⟩
      | panic => exact ⟨hstore _ (by simp), fun hS hm _ => .inl (Classical.byContradiction fun hj => hnp hS hm hj rfl)⟩
      | ok x =>
        cases o with
        | none =>
          obtain ⟨q1, q2⟩ := hnone rfl
          exact ⟨hstore _ (by simp), fun _ _ _ => .inr ⟨q1, trivial, .inr q2⟩⟩
        | some o =>
          simp only
          by_cases he : o.isEmpty = true
          · simp only [he, if_true]
            exact ⟨hstore _ (by simp), fun _ _ hp => by cases hp⟩
          · simp only [he, Bool.false_eq_true, if_false]
            exact ⟨hstore _ (by simp), fun _ _ hp => by cases hp⟩

theorem live_processBundle_sound {E : Env} (hr : ∀ n, E.rng n ≠ none) {st : LiveStore} (h : st.Sound) (pos : Nat) (a : Addr) (b : Bundle) :
    (st.processBundle E pos a b).2.1.Sound ∧ (st.processBundle E pos a b).1 ≠ .panic := by
  unfold LiveStore.processBundle
  have hc : checkBundle E st.identities a b ≠ .panic := by
    unfold checkBundle
    split
    · simp
    · split
      · simp
      · split <;> simp
  generalize checkBundle E st.identities a b = c at hc
  cases c with
  | err e => exact ⟨h, by simp⟩
  | panic => exact absurd rfl hc
  | ok spk =>
    simp only
    obtain ⟨b1, b2, b3⟩ := buildFromBundle_sound E hr pos a b spk (h.load a)
    generalize buildFromBundle E pos a (st.load a) b spk = g at b1 b2 b3
    obtain ⟨g, r1, p1, effs⟩ := g
    simp only at b1 b2 b3 ⊢
    subst b1 b3
    refine ⟨live_finish_sound h a (.inr b2) (fun c r' hm => ?_), by simp⟩
    simp at hm
    rw [hm.2]; exact .inr b2

theorem live_errand_sound {E : Env} (hS : StdSM E.S) (hr : ∀ n, E.rng n ≠ none) {n : LiveNode} (h : n.st.Sound) (x : Errand) : (n.errand E x).st.Sound := by
  cases x with
  | call c =>
    cases c with
    | encrypt a pt => exact (live_encrypt_sound hS h a pt).1
    | decrypt a m => exact (live_decrypt_sound h n.pos a m).1
    | decryptPreKey a m => exact (live_decryptPreKey_sound h n.pos a m).1
    | processBundle a b => exact (live_processBundle_sound hr h n.pos a b).1
  | deleteSession a =>
    intro b r hb
    by_cases hba : b = a
    · subst hba; simp [LiveNode.errand, upd] at hb
    · simp only [LiveNode.errand, upd, if_neg hba] at hb; exact h b r hb
  | _ => exact h

theorem live_doAll_sound {E : Env} (hS : StdSM E.S) (hr : ∀ n, E.rng n ≠ none) : ∀ (xs : List Errand) {n : LiveNode}, n.st.Sound → (n.doAll E xs).st.Sound
  | [], _, h => h
  | x :: xs, _, h => live_doAll_sound hS hr xs (live_errand_sound hS hr h x)

theorem parsed_struct {S : Ser SMStruct} {bytes : Bytes} {m : SignalMsg} (h : newSignalMessageFromBytes S bytes = .ok m) : newSignalMessageFromStruct m.struct = .ok m := by
  unfold newSignalMessageFromBytes at h
  cases hd : S.de bytes with
  | err e => simp [hd] at h
  | panic => simp [hd] at h
  | ok st =>
    simp only [hd, Res.bind_ok] at h
    rw [newSignalMessageFromStruct_struct h]; exact h

theorem parsed_inner {P : Ser PKStruct} {S : Ser SMStruct} {bytes : Bytes} {m : PreKeyMsg} (hm : newPreKeyMessageFromBytes P S bytes = .ok m) :
    newSignalMessageFromStruct m.message.struct = .ok m.message := by
  unfold newPreKeyMessageFromBytes at hm
  cases hd : P.de bytes with
  | err e => simp [hd] at hm
  | panic => simp [hd] at hm
  | ok st =>
    simp only [hd, Res.bind_ok] at hm
    unfold newPreKeyMessageFromStruct at hm
    cases hv : checkVersion st.version with
    | err e => simp [hv] at hm
    | panic => simp [hv] at hm
    | ok u =>
      simp only [hv, Res.bind_ok] at hm
      split at hm
      · rename_i bk ik msg _ _ _
        cases h1 : decodePoint bk with
        | err e => simp [h1] at hm
        | panic => simp [h1] at hm
        | ok base =>
          simp only [h1, Res.bind_ok] at hm
          cases h2 : decodePoint ik with
          | err e => simp [h2] at hm
          | panic => simp [h2] at hm
          | ok idk =>
            simp only [h2, Res.bind_ok] at hm
            cases h3 : newSignalMessageFromBytes S msg with
            | err e => simp [h3] at hm
            | panic => simp [h3] at hm
            | ok m' =>
              simp only [h3, Res.map_ok, Res.ok.injEq] at hm
              subst hm
              exact parsed_struct h3
      · simp at hm

/-- **C91 (live stores).** With a store that hands out the stored object (where a refused message leaves its traces) and a random source that does not fail, after any history of calls and store
maintenance that began with no sessions: `ProcessBundle` never crashes; `Encrypt` succeeds to every peer whose stored record has a sending chain; `Decrypt` of a message parsed from any bytes crashes
only if its ciphertext is longer than a block and no whole number of blocks; `DecryptMessage` crashes only then or for a trusted identity and a new base key when the signed prekey is unknown or the
one-time prekey id is missing or 0xFFFFFF. (What is missing are these cases; for a failing random source see `C91_failed_process_bundle_false`.) -/
theorem C91_live_no_crash_partial (E : Env) (hS : StdSM E.S) (hr : ∀ n, E.rng n ≠ none) (n0 : LiveNode) (h0 : ∀ a, n0.st.sessions a = none) (xs : List Errand) :
    let n := n0.doAll E xs
    (∀ a b, (n.st.processBundle E n.pos a b).1 ≠ .panic) ∧
    (∀ a r pt, n.st.sessions a = some r → r.state.senderChain ≠ none → pt.length < 2 ^ 63 → ∃ cm, (n.st.encrypt E a pt).1 = .ok cm) ∧
    (∀ a bytes m, newSignalMessageFromBytes E.S bytes = .ok m → (n.st.decrypt E n.pos a m).1 = .panic →
      16 ≤ (m.struct.cipherText.getD []).length ∧ (m.struct.cipherText.getD []).length % 16 ≠ 0) ∧
    (∀ a bytes m, newPreKeyMessageFromBytes E.P E.S bytes = .ok m → (n.st.decryptPreKey E n.pos a m).1 = .panic →
      (16 ≤ (m.message.struct.cipherText.getD []).length ∧ (m.message.struct.cipherText.getD []).length % 16 ≠ 0) ∨
      ¬ Knows (n.st.load a) m ∧ E.trusted n.st.identities a m.identityKey = true ∧
        (n.st.signedPreKeys m.struct.signedPreKeyId = none ∨ m.struct.preKeyId = none ∨ ∃ o, m.struct.preKeyId = some o ∧ o.value = 0xFFFFFF)) := by
  intro n
  have hw : n.st.Sound := live_doAll_sound hS hr xs (fun a r hs => by rw [h0 a] at hs; cases hs)
  refine ⟨fun a b => (live_processBundle_sound hr hw n.pos a b).2, fun a r pt hs hsc hpt => (live_encrypt_sound hS hw a pt).2 r hs hsc hpt,
    fun a bytes m hm hp => (live_decrypt_sound hw n.pos a m).2 hS (parsed_struct hm) hp,
    fun a bytes m hm hp => (live_decryptPreKey_sound hw n.pos a m).2 hS (parsed_inner hm) hp⟩

namespace Toy
set_option maxRecDepth 100000

/-- Alice with a live store: the history of Props/Robust, the same reply again (refused), and Bob's bundle a second time. -/
def aliceDoesLive : List Errand := aliceDoes ++ [.call (.decrypt bob reply1), .call (.processBundle bob bundle)]

example : (∀ n, aliceEnv.rng n ≠ none) ∧
    (((LiveNode.mk ⟨fun _ => none, fun _ => none, fun _ => none, fun _ => none⟩ 0).doAll aliceEnv aliceDoesLive).st.sessions bob).any (fun r => r.state.senderChain.isSome && r.fresh) = true := by
  refine ⟨fun n => by simp [aliceEnv, env], ?_⟩
  decide +kernel

end Toy

end Verif
