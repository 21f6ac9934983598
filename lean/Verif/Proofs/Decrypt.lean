import Verif.Proofs.Refine
/- Structure of `decryptWithState`. -/
set_option linter.unusedSimpArgs false
namespace Verif

/-- Verify the MAC with the session's identities and decrypt, given the message keys. -/
def openWith (E : Env) (remote loc : Option Key32) (m : SignalMsg) (mk : MsgKeys) : Res (Bytes × MsgKeys) :=
  (m.verifyMac E.C E.S m.struct.version remote loc mk.macKey).bind fun _ =>
    (decryptBody E.C mk (m.struct.cipherText.getD [])).map fun pt => (pt, mk)

/-- Clearing the pending prekey after success. -/
def clearPending (ok : Bool) (s : SState) : SState := if ok then { s with pendingPreKey := none } else s

theorem recv_no_panic (C : Crypto) (c : Chain) (counter : UInt32) : (c.recv C counter).1 ≠ .panic := by
  unfold Chain.recv
  split
  · split <;> simp
  · split <;> simp

theorem recv_err (C : Crypto) (c : Chain) (counter : UInt32) (e : Err) (h : (c.recv C counter).1 = .err e) :
    (c.recv C counter).2 = c ∧ (e = .oldCounter ∨ e = .tooFarFuture) := by
  unfold Chain.recv at *
  by_cases h1 : counter < c.chainKey.index
  · rw [if_pos h1] at h ⊢
    cases hf : c.msgKeys.find? (fun k => k.index == counter) with
    | some k => simp [hf] at h
    | none => simp [hf] at h; exact ⟨rfl, .inl h.symm⟩
  · rw [if_neg h1] at h ⊢
    by_cases h2 : maxFutureMessages < counter - c.chainKey.index
    · rw [if_pos h2] at h ⊢
      simp at h; exact ⟨rfl, .inr h.symm⟩
    · rw [if_neg h2] at h; simp at h

theorem recv_pair (C : Crypto) (c : Chain) (counter : UInt32) : (c.recv C counter).2.pair = c.pair := by
  unfold Chain.recv
  split
  · split <;> rfl
  · split <;> rfl

/-- A message on a chain that already exists. -/
theorem decryptWithState_existing (E : Env) (draw : Option Key32) (s : SState) (m : SignalMsg) (c : Chain)
    (hs : s.senderChain ≠ none) (hv : m.struct.version = s.version)
    (hc : s.receiverChain m.senderRatchetKey = some c) :
    decryptWithState E draw s m =
      match c.recv E.C m.struct.counter with
      | (.ok mk, c') =>
        (openWith E s.remoteIdentity s.localIdentity m mk,
         clearPending (openWith E s.remoteIdentity s.localIdentity m mk).isOk
           (s.modifyChain m.senderRatchetKey (fun _ => c')), false)
      | (.err e, _) => (.err e, s, false)
      | (.panic, _) => (.panic, s, false) := by
  unfold decryptWithState
  cases hsc : s.senderChain with
  | none => exact absurd hsc hs
  | some sc =>
    simp only
    rw [if_neg (by simpa using hv)]
    have hg : getOrCreateChainKey E.C draw s m.senderRatchetKey = (.ok c.chainKey, s, false) := by
      simp [getOrCreateChainKey, hc]
    simp only [hg, getOrCreateMessageKeys_eq _ _ _ _ _ hc]
    cases hr : c.recv E.C m.struct.counter with
    | mk r c' =>
      cases r with
      | err e =>
        have := recv_err E.C c m.struct.counter e (by rw [hr])
        rw [hr] at this
        simp only at this
        rw [this.1, modifyChain_self hc]
      | panic => exact absurd (by rw [hr]) (recv_no_panic E.C c m.struct.counter)
      | ok mk =>
        simp only [openWith, SState.modifyChain]
        cases m.verifyMac E.C E.S m.struct.version s.remoteIdentity s.localIdentity mk.macKey with
        | err e => simp [clearPending, Res.isOk]
        | panic => simp [clearPending, Res.isOk]
        | ok u =>
          simp only [Res.bind_ok]
          cases decryptBody E.C mk (m.struct.cipherText.getD []) with
          | err e => simp [clearPending, Res.isOk]
          | panic => simp [clearPending, Res.isOk]
          | ok pt => simp [clearPending, Res.isOk]

theorem addReceiverChain_find (s : SState) (eph : Key32) (ck : ChainKey) (h : s.receiverChain eph = none) :
    (s.addReceiverChain eph ck).receiverChain eph = some ⟨⟨eph, none⟩, ck, []⟩ := by
  have hn : ∀ l : List Chain, (∀ x ∈ l, x ∈ s.receiverChains) →
      (l ++ [(⟨⟨eph, none⟩, ck, []⟩ : Chain)]).find? (fun c => c.pair.pub == eph) = some ⟨⟨eph, none⟩, ck, []⟩ := by
    intro l hl
    rw [List.find?_append]
    have : l.find? (fun c => c.pair.pub == eph) = none := by
      rw [List.find?_eq_none]
      intro x hx
      simp only [SState.receiverChain, List.find?_eq_none] at h
      exact h x (hl x hx)
    simp [this]
  simp only [SState.addReceiverChain, SState.receiverChain]
  split
  · rename_i hlen
    have hpos : 0 < s.receiverChains.length := by
      simp [maxReceiverChains] at hlen; omega
    rw [List.drop_append_of_le_length (by omega)]
    exact hn _ (fun x hx => List.mem_of_mem_drop hx)
  · exact hn _ (fun x hx => hx)

/-- The Diffie–Hellman ratchet step: new receiving chain, new sending chain. -/
def ratchetStep (C : Crypto) (s : SState) (eph : Key32) (root : Bytes) (oldIndex : UInt32) (ourOld ourNew : Key32) : SState :=
  let recv := kdfRoot C root (C.dh eph ourOld)
  let send := kdfRoot C recv.root (C.dh eph ourNew)
  ({ ({ s with rootKey := some send.root } : SState).addReceiverChain eph recv.chain with
      previousCounter := maxU32 (oldIndex - 1) 0 } : SState).setSenderChain ⟨C.basePub ourNew, some ourNew⟩ send.chain

theorem getOrCreateChainKey_new (C : Crypto) (s : SState) (eph : Key32) (root : Bytes) (sc : Chain) (p r : Key32)
    (hc : s.receiverChain eph = none) (hr : s.rootKey = some root) (hsc : s.senderChain = some sc)
    (hp : sc.pair.priv = some p) :
    getOrCreateChainKey C (some r) s eph =
      (.ok (kdfRoot C root (C.dh eph p)).chain, ratchetStep C s eph root sc.chainKey.index p (clamp r), true) := by
  unfold getOrCreateChainKey
  simp only [hc, hr, hsc]
  rw [createChain_eq C root eph sc.pair hp]
  simp only [generateKeyPair]
  rw [createChain_eq C _ eph ⟨C.basePub (clamp r), some (clamp r)⟩ rfl]
  rfl

theorem getOrCreateChainKey_noRand (C : Crypto) (s : SState) (eph : Key32) (root : Bytes) (sc : Chain) (p : Key32)
    (hc : s.receiverChain eph = none) (hr : s.rootKey = some root) (hsc : s.senderChain = some sc)
    (hp : sc.pair.priv = some p) :
    getOrCreateChainKey C none s eph = (.err .randFailure, s, true) := by
  unfold getOrCreateChainKey
  simp only [hc, hr, hsc]
  rw [createChain_eq C root eph sc.pair hp]
  simp only [generateKeyPair]

theorem ratchetStep_chain (C : Crypto) (s : SState) (eph : Key32) (root : Bytes) (i : UInt32) (p r : Key32)
    (hc : s.receiverChain eph = none) :
    (ratchetStep C s eph root i p r).receiverChain eph =
      some ⟨⟨eph, none⟩, (kdfRoot C root (C.dh eph p)).chain, []⟩ := by
  have := addReceiverChain_find { s with rootKey := some (kdfRoot C (kdfRoot C root (C.dh eph p)).root (C.dh eph r)).root } eph
    (kdfRoot C root (C.dh eph p)).chain hc
  exact this

/-- All ways `getOrCreateChainKey` can end. -/
theorem getOrCreateChainKey_cases (C : Crypto) (draw : Option Key32) (s : SState) (eph : Key32) :
    (∃ c, s.receiverChain eph = some c ∧ getOrCreateChainKey C draw s eph = (.ok c.chainKey, s, false)) ∨
    (s.receiverChain eph = none ∧ ∃ root sc p r, s.rootKey = some root ∧ s.senderChain = some sc ∧ sc.pair.priv = some p ∧
      draw = some r ∧ getOrCreateChainKey C draw s eph =
        (.ok (kdfRoot C root (C.dh eph p)).chain, ratchetStep C s eph root sc.chainKey.index p (clamp r), true)) ∨
    (s.receiverChain eph = none ∧ getOrCreateChainKey C draw s eph = (.err .randFailure, s, true) ∧ draw = none) ∨
    (s.receiverChain eph = none ∧ getOrCreateChainKey C draw s eph = (.panic, s, false)) := by
  cases hc : s.receiverChain eph with
  | some c => exact .inl ⟨c, rfl, by simp [getOrCreateChainKey, hc]⟩
  | none =>
    right
    cases hr : s.rootKey with
    | none => exact .inr (.inr ⟨rfl, by simp [getOrCreateChainKey, hc, hr]⟩)
    | some root =>
      cases hs : s.senderChain with
      | none => exact .inr (.inr ⟨rfl, by simp [getOrCreateChainKey, hc, hr, hs]⟩)
      | some sc =>
        cases hp : sc.pair.priv with
        | none => exact .inr (.inr ⟨rfl, by simp [getOrCreateChainKey, hc, hr, hs, createChain_none _ _ _ _ hp]⟩)
        | some p =>
          cases draw with
          | none => exact .inr (.inl ⟨rfl, getOrCreateChainKey_noRand C s eph root sc p hc hr hs hp, rfl⟩)
          | some r =>
            exact .inl ⟨rfl, root, sc, p, r, rfl, rfl, hp, rfl, getOrCreateChainKey_new C s eph root sc p r hc hr hs hp⟩

/-- A message on a new chain: ratchet step, then as on an existing chain. -/
theorem decryptWithState_new (E : Env) (s : SState) (m : SignalMsg) (root : Bytes) (sc : Chain) (p r : Key32)
    (hv : m.struct.version = s.version) (hc : s.receiverChain m.senderRatchetKey = none) (hr : s.rootKey = some root)
    (hsc : s.senderChain = some sc) (hp : sc.pair.priv = some p) (draw : Option Key32) :
    decryptWithState E (some r) s m =
      ((decryptWithState E draw (ratchetStep E.C s m.senderRatchetKey root sc.chainKey.index p (clamp r)) m).1,
       (decryptWithState E draw (ratchetStep E.C s m.senderRatchetKey root sc.chainKey.index p (clamp r)) m).2.1, true) := by
  have h1 := ratchetStep_chain E.C s m.senderRatchetKey root sc.chainKey.index p (clamp r) hc
  have h2 : (ratchetStep E.C s m.senderRatchetKey root sc.chainKey.index p (clamp r)).senderChain ≠ none := by
    simp [ratchetStep, SState.setSenderChain]
  have h3 : (ratchetStep E.C s m.senderRatchetKey root sc.chainKey.index p (clamp r)).version = s.version := rfl
  generalize hs1 : ratchetStep E.C s m.senderRatchetKey root sc.chainKey.index p (clamp r) = s1 at h1 h2 h3
  have hg1 : getOrCreateChainKey E.C draw s1 m.senderRatchetKey = (.ok (kdfRoot E.C root (E.C.dh m.senderRatchetKey p)).chain, s1, false) := by
    simp [getOrCreateChainKey, h1]
  have hg : getOrCreateChainKey E.C (some r) s m.senderRatchetKey = (.ok (kdfRoot E.C root (E.C.dh m.senderRatchetKey p)).chain, s1, true) := by
    rw [getOrCreateChainKey_new E.C s _ root sc p r hc hr hsc hp, hs1]
  unfold decryptWithState
  cases hsc1 : s1.senderChain with
  | none => exact absurd hsc1 h2
  | some sc1 =>
    simp only [hsc]
    rw [if_neg (by simpa using hv), if_neg (by rw [h3]; simpa using hv), hg, hg1]
    simp only
    cases hgm : getOrCreateMessageKeys E.C s1 m.senderRatchetKey (kdfRoot E.C root (E.C.dh m.senderRatchetKey p)).chain
        m.struct.counter with
    | mk r s2 =>
      cases r with
      | err e => rfl
      | panic => rfl
      | ok mk =>
        simp only
        cases m.verifyMac E.C E.S m.struct.version s2.remoteIdentity s2.localIdentity mk.macKey with
        | err e => rfl
        | panic => rfl
        | ok u =>
          simp only
          cases decryptBody E.C mk (m.struct.cipherText.getD []) <;> rfl

/-- All ways decrypting with a state can go: nothing happens, or (after a possible ratchet step)
the message is processed on its chain. -/
theorem decryptWithState_cases (E : Env) (draw : Option Key32) (s : SState) (m : SignalMsg) :
    (∃ res d, decryptWithState E draw s m = (res, s, d) ∧ res.isOk = false ∧
      ((s.senderChain = none ∧ res = .err .uninitialized ∧ d = false) ∨
       (m.struct.version ≠ s.version ∧ res = .err .wrongVersion ∧ d = false) ∨
       (s.receiverChain m.senderRatchetKey = none ∧ (res = .panic ∧ d = false ∨ res = .err .randFailure ∧ draw = none ∧ d = true)))) ∨
    (∃ s1 c d, s1.receiverChain m.senderRatchetKey = some c ∧ s1.senderChain ≠ none ∧ m.struct.version = s1.version ∧
      ((s1 = s ∧ d = false) ∨
       (s.receiverChain m.senderRatchetKey = none ∧ d = true ∧ ∃ root sc p r, s.rootKey = some root ∧ s.senderChain = some sc ∧
          sc.pair.priv = some p ∧ draw = some r ∧
          s1 = ratchetStep E.C s m.senderRatchetKey root sc.chainKey.index p (clamp r))) ∧
      decryptWithState E draw s m =
        match c.recv E.C m.struct.counter with
        | (.ok mk, c') =>
          (openWith E s.remoteIdentity s.localIdentity m mk,
           clearPending (openWith E s.remoteIdentity s.localIdentity m mk).isOk
             (s1.modifyChain m.senderRatchetKey (fun _ => c')), d)
        | (.err e, _) => (.err e, s1, d)
        | (.panic, _) => (.panic, s1, d)) := by
  cases hsc : s.senderChain with
  | none => exact .inl ⟨.err .uninitialized, false, by simp [decryptWithState, hsc], rfl, .inl ⟨rfl, rfl, rfl⟩⟩
  | some sc =>
    by_cases hv : m.struct.version = s.version
    · rcases getOrCreateChainKey_cases E.C draw s m.senderRatchetKey with ⟨c, hc, -⟩ | ⟨hc, root, sc', p, r, hr, hsc', hp, rfl, hg⟩ |
        ⟨hc, hg, hd⟩ | ⟨hc, hg⟩
      · right
        exact ⟨s, c, false, hc, by simp [hsc], hv, .inl ⟨rfl, rfl⟩,
          decryptWithState_existing E draw s m c (by simp [hsc]) hv hc⟩
      · right
        rw [hsc] at hsc'; cases hsc'
        have h1 := ratchetStep_chain E.C s m.senderRatchetKey root sc.chainKey.index p (clamp r) hc
        refine ⟨_, _, true, h1, by simp [ratchetStep, SState.setSenderChain], hv,
          .inr ⟨hc, rfl, root, sc, p, r, hr, rfl, hp, rfl, rfl⟩, ?_⟩
        rw [decryptWithState_new E s m root sc p r hv hc hr hsc hp none,
          decryptWithState_existing E none (ratchetStep E.C s m.senderRatchetKey root sc.chainKey.index p (clamp r)) m _
            (by simp [ratchetStep, SState.setSenderChain]) hv h1]
        split <;> rfl
      · left
        refine ⟨.err .randFailure, true, ?_, rfl, .inr (.inr ⟨hc, .inr ⟨rfl, hd, rfl⟩⟩)⟩
        simp [decryptWithState, hsc, hv, hg]
      · left
        refine ⟨.panic, false, ?_, rfl, .inr (.inr ⟨hc, .inl ⟨rfl, rfl⟩⟩)⟩
        simp [decryptWithState, hsc, hv, hg]
    · exact .inl ⟨.err .wrongVersion, false, by simp [decryptWithState, hsc, hv], rfl, .inr (.inl ⟨hv, rfl, rfl⟩)⟩

end Verif
