import Verif.Props.Crowd
import Verif.Props.LogSecrets
import Verif.Props.Cbc
/-
C91: calls of the session API return a result or an error.
-/
set_option linter.unusedSimpArgs false
namespace Verif

/-! ### Session states as the library leaves them -/

/-- The message keys have the lengths the cipher needs. -/
def KeysFit (c : Chain) : Prop := ∀ k ∈ c.msgKeys, k.cipherKey.length = 32 ∧ k.iv.length = 16

/-- A state that was set up by the library. -/
structure SState.Whole (s : SState) : Prop where
  init : s.Initialised
  version : s.version = currentVersion
  priv : ∀ sc, s.senderChain = some sc → sc.pair.priv ≠ none
  keys : ∀ c ∈ s.receiverChains, KeysFit c

theorem pushSkipped_fit (C : Crypto) : ∀ (n : Nat) (ck : ChainKey) (l : List MsgKeys), (∀ k ∈ l, k.cipherKey.length = 32 ∧ k.iv.length = 16) →
    ∀ k ∈ pushSkipped C n ck l, k.cipherKey.length = 32 ∧ k.iv.length = 16
  | 0, _, _, h => h
  | n + 1, ck, l, h => by
    refine pushSkipped_fit C n _ _ ?_
    intro k hk
    have : k ∈ l ++ [ck.msgKeys C] := by
      unfold capPush at hk
      dsimp only at hk
      split at hk
      · exact List.mem_of_mem_drop hk
      · exact hk
    rw [List.mem_append, List.mem_singleton] at this
    rcases this with this | rfl
    · exact h k this
    · obtain ⟨h1, -, h3, -⟩ := msgKeys_ok C ck; exact ⟨h1, h3⟩

theorem recv_fit (C : Crypto) (c : Chain) (n : UInt32) (h : KeysFit c) :
    KeysFit (c.recv C n).2 ∧ ∀ mk, (c.recv C n).1 = .ok mk → mk.cipherKey.length = 32 ∧ mk.iv.length = 16 := by
  unfold Chain.recv
  split
  · split
    · rename_i k hk
      refine ⟨fun k' hk' => h k' (List.mem_of_mem_eraseP hk'), ?_⟩
      intro mk hmk
      cases hmk
      exact h _ (List.mem_of_find?_eq_some hk)
    · exact ⟨h, by simp⟩
  · split
    · exact ⟨h, by simp⟩
    · refine ⟨pushSkipped_fit C _ _ _ h, ?_⟩
      intro mk hmk
      cases hmk
      obtain ⟨h1, -, h3, -⟩ := msgKeys_ok C (c.chainKey.iter C (n - c.chainKey.index).toNat)
      exact ⟨h1, h3⟩

theorem ratchetStep_whole {C : Crypto} {s : SState} (h : s.Whole) (eph : Key32) (root : Bytes) (i : UInt32) (p r : Key32) :
    (ratchetStep C s eph root i p r).Whole := by
  obtain ⟨⟨h1, h2, h3, h4, h5⟩, hv, hp, hk⟩ := h
  refine ⟨⟨h1, h2, by simp [ratchetStep, SState.setSenderChain, SState.addReceiverChain], h4, by simp [ratchetStep, SState.setSenderChain]⟩, hv, ?_, ?_⟩
  · intro sc hsc
    simp only [ratchetStep, SState.setSenderChain, Option.some.injEq] at hsc
    subst hsc
    simp
  · intro c hc
    rcases addReceiverChain_mem (s := { s with rootKey := some _ }) hc with hc | rfl
    · exact hk c hc
    · intro k hk; simp at hk

/-- The message's ciphertext is at least one block long but no whole number of blocks.  (`Encrypt` makes no such message.) -/
def Jagged (m : SignalMsg) : Prop := 16 ≤ (m.struct.cipherText.getD []).length ∧ (m.struct.cipherText.getD []).length % 16 ≠ 0

theorem verifyMac_no_panic {C : Crypto} {S : Ser SMStruct} (hS : StdSM S) {m : SignalMsg} (hm : newSignalMessageFromStruct m.struct = .ok m) {v : Int}
    {remote loc : Option Key32} (hr : remote ≠ none) (hl : loc ≠ none) (k : Bytes) : m.verifyMac C S v remote loc k ≠ .panic := by
  unfold SignalMsg.verifyMac
  rw [hm, Res.bind_ok]
  obtain ⟨b, hb⟩ := hS.ser_ok { m.struct with mac := none, version := 0 }
  rw [hb, Res.bind_ok]
  cases remote with
  | none => exact absurd rfl hr
  | some r =>
    cases loc with
    | none => exact absurd rfl hl
    | some l =>
      unfold getMac
      split <;> simp [trim, Arr.len, macLength] <;> split <;> simp

theorem decryptWithState_whole (E : Env) (d : Option Key32) {s : SState} (m : SignalMsg) (h : s.Whole) : (decryptWithState E d s m).2.1.Whole := by
  rcases decryptWithState_cases E d s m with ⟨res, d', he, -, -⟩ | ⟨s1, c, d', hc, h1, -, hs1, he⟩
  · rw [he]; exact h
  · have hw : s1.Whole := by
      rcases hs1 with ⟨rfl, -⟩ | ⟨-, -, root, sc, p, r, -, -, -, -, rfl⟩
      · exact h
      · exact ratchetStep_whole h _ _ _ _ _
    have hf := recv_fit E.C c m.struct.counter (hw.keys c (receiverChain_mem hc).1)
    rw [he]
    generalize c.recv E.C m.struct.counter = g at hf
    obtain ⟨g, c'⟩ := g
    cases g with
    | err e => exact hw
    | panic => exact hw
    | ok mk =>
      have hw2 : (s1.modifyChain m.senderRatchetKey (fun _ => c')).Whole := by
        refine ⟨hw.init, hw.version, hw.priv, ?_⟩
        intro x hx
        rcases mem_modifyFirst hx with hx | ⟨b, hb, -, rfl⟩
        · exact hw.keys x hx
        · exact hf.1
      show (clearPending _ _).Whole
      generalize Res.isOk _ = b
      cases b
      · exact hw2
      · exact ⟨hw2.init, hw2.version, hw2.priv, hw2.keys⟩

/-- When decrypting with a state crashes: the message gets past the MAC check of its own message key and has a jagged ciphertext. -/
theorem decryptWithState_panic_iff (E : Env) (hS : StdSM E.S) (d : Option Key32) {s : SState} {m : SignalMsg} (h : s.Whole)
    (hm : newSignalMessageFromStruct m.struct = .ok m) :
    (decryptWithState E d s m).1 = .panic ↔
      (m.struct.version = s.version ∧ ∃ ck s1 b mk s2, getOrCreateChainKey E.C d s m.senderRatchetKey = (.ok ck, s1, b) ∧
        getOrCreateMessageKeys E.C s1 m.senderRatchetKey ck m.struct.counter = (.ok mk, s2) ∧
        m.verifyMac E.C E.S m.struct.version s.remoteIdentity s.localIdentity mk.macKey = .ok ()) ∧ Jagged m := by
  obtain ⟨⟨i1, i2, i3, i4, i5⟩, hv, hp, hk⟩ := h
  have hw : s.Whole := ⟨⟨i1, i2, i3, i4, i5⟩, hv, hp, hk⟩
  cases hsc : s.senderChain with
  | none => exact absurd hsc i5
  | some sc =>
  by_cases hver : m.struct.version = s.version
  swap
  · simp [decryptWithState, hsc, hver]
  -- the chain
  have hg : (∃ e, ∃ b, getOrCreateChainKey E.C d s m.senderRatchetKey = (.err e, s, b)) ∨
      ∃ c s1 b, getOrCreateChainKey E.C d s m.senderRatchetKey = (.ok c.chainKey, s1, b) ∧ s1.receiverChain m.senderRatchetKey = some c ∧ s1.Whole ∧
        s1.remoteIdentity = s.remoteIdentity ∧ s1.localIdentity = s.localIdentity := by
    rcases getOrCreateChainKey_cases E.C d s m.senderRatchetKey with ⟨c, hc, hg⟩ | ⟨hc, root, sc', p, r, hr, hsc', hp', rfl, hg⟩ | ⟨hc, hg, hd⟩ | ⟨hc, hg⟩
    · exact .inr ⟨c, s, false, hg, hc, hw, rfl, rfl⟩
    · exact .inr ⟨_, _, true, hg, ratchetStep_chain E.C s m.senderRatchetKey root sc'.chainKey.index p (clamp r) hc, ratchetStep_whole hw _ _ _ _ _, rfl, rfl⟩
    · exact .inl ⟨_, _, hg⟩
    · exfalso
      cases hr : s.rootKey with
      | none => exact i3 hr
      | some root =>
        cases hq : sc.pair.priv with
        | none => exact hp sc hsc hq
        | some p =>
          cases d with
          | none => rw [getOrCreateChainKey_noRand E.C s _ root sc p hc hr hsc hq] at hg; simp at hg
          | some r => rw [getOrCreateChainKey_new E.C s _ root sc p r hc hr hsc hq] at hg; simp at hg
  rcases hg with ⟨e, b, hg⟩ | ⟨c, s1, b, hg, hc, hw1, hr1, hl1⟩
  · simp [decryptWithState, hsc, hver, hg]
  · have hf := recv_fit E.C c m.struct.counter (hw1.keys c (receiverChain_mem hc).1)
    have hnp := recv_no_panic E.C c m.struct.counter
    have hmk := getOrCreateMessageKeys_eq E.C s1 m.senderRatchetKey c m.struct.counter hc
    have hdef : (decryptWithState E d s m).1 = match c.recv E.C m.struct.counter with
        | (.ok mk, _) => openWith E s.remoteIdentity s.localIdentity m mk
        | (.err e, _) => .err e
        | (.panic, _) => .panic := by
      unfold decryptWithState
      simp only [hsc]
      rw [if_neg (by simpa using hver)]
      simp only [hg, hmk]
      generalize c.recv E.C m.struct.counter = g at *
      obtain ⟨g, c'⟩ := g
      cases g with
      | err e => rfl
      | panic => rfl
      | ok mk =>
        simp only [openWith, SState.modifyChain, hr1, hl1]
        cases m.verifyMac E.C E.S m.struct.version s.remoteIdentity s.localIdentity mk.macKey with
        | err e => simp
        | panic => simp
        | ok u =>
          simp only [Res.bind_ok]
          cases decryptBody E.C mk (m.struct.cipherText.getD []) <;> simp
    rw [hdef]
    generalize c.recv E.C m.struct.counter = g at *
    obtain ⟨g, c'⟩ := g
    cases g with
    | err e =>
      refine ⟨fun h => by simp at h, ?_⟩
      rintro ⟨⟨-, ck, s1', b', mk, s2, h1, h2, -⟩, -⟩
      rw [hg] at h1
      simp only [Prod.mk.injEq, Res.ok.injEq] at h1
      obtain ⟨rfl, rfl, -⟩ := h1
      rw [hmk] at h2
      simp at h2
    | panic => exact absurd rfl hnp
    | ok mk =>
      obtain ⟨k1, k2⟩ := hf.2 mk rfl
      have hbody := (C28_decrypt_panics_iff E.C mk.iv mk.cipherKey (m.struct.cipherText.getD []) k2 (.inr (.inr k1))).1
      show openWith E s.remoteIdentity s.localIdentity m mk = .panic ↔ _
      have hvp := verifyMac_no_panic (C := E.C) hS hm (v := m.struct.version) i2 i1 mk.macKey
      unfold openWith
      constructor
      · intro hpan
        cases hvm : m.verifyMac E.C E.S m.struct.version s.remoteIdentity s.localIdentity mk.macKey with
        | err e => rw [hvm] at hpan; simp at hpan
        | panic => exact absurd hvm hvp
        | ok u =>
          rw [hvm, Res.bind_ok] at hpan
          refine ⟨⟨hver, _, s1, b, mk, _, hg, hmk, hvm⟩, hbody.1 ?_⟩
          show decryptBody E.C mk _ = .panic
          cases hdb : decryptBody E.C mk (m.struct.cipherText.getD []) with
          | err e => rw [hdb] at hpan; simp at hpan
          | ok e => rw [hdb] at hpan; simp at hpan
          | panic => rfl
      · rintro ⟨⟨-, ck, s1', b', mk', s2, h1, h2, h3⟩, hj⟩
        rw [hg] at h1
        simp only [Prod.mk.injEq, Res.ok.injEq] at h1
        obtain ⟨rfl, rfl, -⟩ := h1
        rw [hmk] at h2
        simp only [Prod.mk.injEq, Res.ok.injEq] at h2
        obtain ⟨rfl, -⟩ := h2
        rw [h3, Res.bind_ok]
        have : decryptBody E.C mk (m.struct.cipherText.getD []) = .panic := hbody.2 hj
        rw [this]; rfl

/-! ### Records -/

/-- All states of the record are whole. -/
structure Rec.Whole (r : Rec) : Prop where
  states : ∀ b ∈ r.cur :: r.prev, (r.heap b).Whole
  below : ∀ b ∈ r.cur :: r.prev, b < r.next

theorem Rec.Whole.set {r : Rec} (h : r.Whole) (b : Nat) {s : SState} (hs : s.Whole) : (r.set b s).Whole := by
  refine ⟨fun x hx => ?_, h.below⟩
  rw [Rec.set_heap]
  split
  · exact hs
  · exact h.states x hx

theorem mem_promoted {l : List Nat} {c x : Nat} (h : x ∈ if archivedStatesMaxLength < (c :: l).length then (c :: l).dropLast else c :: l) : x ∈ c :: l := by
  split at h
  · exact List.dropLast_subset _ h
  · exact h

theorem Rec.Whole.promote {r : Rec} (h : r.Whole) {a : Nat} (ha : a ∈ r.cur :: r.prev) : (r.promote a).Whole := by
  have hm : ∀ x ∈ (r.promote a).cur :: (r.promote a).prev, x ∈ r.cur :: r.prev := by
    intro x hx
    rcases List.mem_cons.1 hx with rfl | hx
    · exact ha
    · exact mem_promoted hx
  exact ⟨fun x hx => h.states x (hm x hx), fun x hx => h.below x (hm x hx)⟩

/-- A new record, or a whole one that came from the store. -/
def Rec.Built (r : Rec) : Prop := r = Rec.new ∨ r.fresh = false ∧ r.Whole

/-- After archiving, the new current state can be filled in. -/
theorem Rec.Built.start {r : Rec} (h : r.Built) {s : SState} (hs : s.Whole) :
    ((if r.fresh then r else r.archiveCurrentState).set (if r.fresh then r else r.archiveCurrentState).cur s).Whole := by
  rcases h with rfl | ⟨hf, hw⟩
  · refine ⟨fun b hb => ?_, fun b hb => ?_⟩
    · have : b = 0 := by simpa [Rec.new, Rec.set] using hb
      subst this
      simpa [Rec.new, Rec.set] using hs
    · have : b = 0 := by simpa [Rec.new, Rec.set] using hb
      subst this
      simp [Rec.new, Rec.set]
  · rw [hf]
    simp only [Bool.false_eq_true, if_false]
    have hm : ∀ x ∈ r.archiveCurrentState.cur :: r.archiveCurrentState.prev, x = r.next ∨ x ∈ r.cur :: r.prev := by
      intro x hx
      rcases List.mem_cons.1 hx with rfl | hx
      · exact .inl rfl
      · exact .inr (mem_promoted hx)
    refine ⟨fun b hb => ?_, fun b hb => ?_⟩
    · rw [Rec.set_heap]
      split
      · exact hs
      · rename_i hne
        rcases hm b hb with rfl | hb
        · exact absurd rfl hne
        · have := hw.below b hb
          show (if b = r.next then _ else _ : SState).Whole
          rw [if_neg (by omega)]
          exact hw.states b hb
    · show b < r.next + 1
      rcases hm b hb with rfl | hb
      · omega
      · have := hw.below b hb; omega

theorem tryPrevious_whole (E : Env) (m : SignalMsg) : ∀ (l : List Nat) (i : Nat) (r : Rec) (pos : Nat), r.Whole → (∀ b ∈ l, b ∈ r.prev) →
    (tryPrevious E m l i r pos).2.1.Whole
  | [], _, _, _, h, _ => h
  | a :: l, i, r, pos, h, hl => by
    unfold tryPrevious
    have hw := decryptWithState_whole E (E.rng pos) m (h.states a (List.mem_cons_of_mem _ (hl a (List.mem_cons_self ..))))
    generalize decryptWithState E (E.rng pos) (r.heap a) m = g at hw
    obtain ⟨g, s', d⟩ := g
    have h2 := h.set a hw
    cases g with
    | err e => exact tryPrevious_whole E m l _ _ _ h2 (fun b hb => hl b (List.mem_cons_of_mem _ hb))
    | panic => exact h2
    | ok x =>
      have hm : ∀ x ∈ r.prev.eraseIdx i ++ r.prev.drop (r.prev.length - 1), x ∈ r.prev := by
        intro x hx
        rcases List.mem_append.1 hx with hx | hx
        · exact List.mem_of_mem_eraseIdx hx
        · exact List.mem_of_mem_drop hx
      show (Rec.promote { r.set a s' with prev := _ } a).Whole
      have key : ∀ x ∈ a :: (if archivedStatesMaxLength < (r.cur :: (r.prev.eraseIdx i ++ r.prev.drop (r.prev.length - 1))).length then
          (r.cur :: (r.prev.eraseIdx i ++ r.prev.drop (r.prev.length - 1))).dropLast else r.cur :: (r.prev.eraseIdx i ++ r.prev.drop (r.prev.length - 1))),
          x ∈ r.cur :: r.prev := by
        intro x hx
        rcases List.mem_cons.1 hx with rfl | hx
        · exact List.mem_cons_of_mem _ (hl _ (List.mem_cons_self ..))
        · rcases List.mem_cons.1 (mem_promoted hx) with rfl | hx
          · exact List.mem_cons_self ..
          · exact List.mem_cons_of_mem _ (hm x hx)
      exact ⟨fun x hx => h2.states x (key x hx), fun x hx => h2.below x (key x hx)⟩

theorem decryptWithRecord_whole (E : Env) (m : SignalMsg) (pos : Nat) {r : Rec} (h : r.Whole) : (decryptWithRecord E pos r m).2.1.Whole := by
  unfold decryptWithRecord
  have hw := decryptWithState_whole E (E.rng pos) m (h.states r.cur (List.mem_cons_self ..))
  generalize decryptWithState E (E.rng pos) (r.heap r.cur) m = g at hw
  obtain ⟨g, s', d⟩ := g
  have h2 := h.set r.cur hw
  cases g with
  | ok x => exact h2
  | panic => exact h2
  | err e => exact tryPrevious_whole E m _ _ _ _ h2 (fun b hb => hb)

theorem tryPrevious_no_panic (E : Env) (hS : StdSM E.S) {m : SignalMsg} (hm : newSignalMessageFromStruct m.struct = .ok m) (hj : ¬ Jagged m) :
    ∀ (l : List Nat) (i : Nat) (r : Rec) (pos : Nat), r.Whole → (∀ b ∈ l, b ∈ r.prev) → (tryPrevious E m l i r pos).1 ≠ .panic
  | [], _, _, _, _, _ => by simp [tryPrevious]
  | a :: l, i, r, pos, h, hl => by
    unfold tryPrevious
    have ha := h.states a (List.mem_cons_of_mem _ (hl a (List.mem_cons_self ..)))
    have hw := decryptWithState_whole E (E.rng pos) m ha
    have hp : (decryptWithState E (E.rng pos) (r.heap a) m).1 ≠ .panic := fun hp => hj ((decryptWithState_panic_iff E hS _ ha hm).1 hp).2
    generalize decryptWithState E (E.rng pos) (r.heap a) m = g at hw hp
    obtain ⟨g, s', d⟩ := g
    cases g with
    | err e => exact tryPrevious_no_panic E hS hm hj l _ _ _ (h.set a hw) (fun b hb => hl b (List.mem_cons_of_mem _ hb))
    | panic => exact absurd rfl hp
    | ok x => simp

theorem decryptWithRecord_no_panic (E : Env) (hS : StdSM E.S) {m : SignalMsg} (hm : newSignalMessageFromStruct m.struct = .ok m) (hj : ¬ Jagged m) (pos : Nat)
    {r : Rec} (h : r.Whole) : (decryptWithRecord E pos r m).1 ≠ .panic := by
  unfold decryptWithRecord
  have ha := h.states r.cur (List.mem_cons_self ..)
  have hw := decryptWithState_whole E (E.rng pos) m ha
  have hp : (decryptWithState E (E.rng pos) (r.heap r.cur) m).1 ≠ .panic := fun hp => hj ((decryptWithState_panic_iff E hS _ ha hm).1 hp).2
  generalize decryptWithState E (E.rng pos) (r.heap r.cur) m = g at hw hp
  obtain ⟨g, s', d⟩ := g
  cases g with
  | ok x => simp
  | panic => exact absurd rfl hp
  | err e => exact tryPrevious_no_panic E hS hm hj _ _ _ _ (h.set _ hw) (fun b hb => hb)

theorem encryptState_whole {E : Env} {s s' : SState} {pt : Bytes} {res : Res CipherMsg} (h : s.Whole) (he : encryptState E s pt = (res, s')) : s'.Whole := by
  cases res with
  | ok cm =>
    obtain ⟨sc, body, sm, h1, -, -, rfl, -⟩ := encryptState_ok he
    refine ⟨⟨h.init.1, h.init.2.1, h.init.2.2.1, h.init.2.2.2.1, by simp⟩, h.version, ?_, h.keys⟩
    intro sc' hsc'
    simp only [Option.some.injEq] at hsc'
    subst hsc'
    exact h.priv sc h1
  | err e => rw [encryptState_fail he rfl]; exact h
  | panic => rw [encryptState_fail he rfl]; exact h

theorem encryptRec_whole {E : Env} {a : Addr} {r : Rec} {pt : Bytes} (h : r.Whole) : (encryptRec E a r pt).2.1.Whole := by
  unfold encryptRec
  have hw := h.states r.cur (List.mem_cons_self ..)
  generalize hg : encryptState E r.state pt = g
  obtain ⟨g, s'⟩ := g
  have hs := encryptState_whole hw hg
  cases g <;> exact h.set _ hs

theorem whole_first {s : SState} (h1 : s.localIdentity ≠ none) (h2 : s.remoteIdentity ≠ none) (h3 : s.rootKey ≠ none) (h4 : s.senderBaseKey ≠ none)
    {pub p : Key32} {ck : ChainKey} (h5 : s.senderChain = some ⟨⟨pub, some p⟩, ck, []⟩) (hv : s.version = currentVersion) (hc : s.receiverChains = []) : s.Whole := by
  refine ⟨⟨h1, h2, h3, h4, by simp [h5]⟩, hv, ?_, by simp [hc]⟩
  intro sc hsc
  rw [h5] at hsc
  cases hsc
  simp

theorem whole_first_sender {E : Env} {s : SState} {b : Bundle} {spk : Key32} {base ratchet : KeyPair} {derived sending : SessionKeys} (hn : s = SState.new)
    (hr : ratchet.priv ≠ none) : (initSenderState E s b spk base ratchet derived sending).Whole := by
  subst hn
  refine ⟨⟨by simp [initSenderState, SState.setSenderChain, SState.addReceiverChain], by simp [initSenderState, SState.setSenderChain, SState.addReceiverChain],
    by simp [initSenderState], by simp [initSenderState], by simp [initSenderState, SState.setSenderChain]⟩, rfl, ?_, ?_⟩
  · intro sc hsc
    simp only [initSenderState, SState.setSenderChain, Option.some.injEq] at hsc
    subst hsc; exact hr
  · intro c hc k hk
    simp only [initSenderState, SState.setSenderChain, SState.addReceiverChain, SState.new, maxReceiverChains, List.nil_append, List.length_cons, List.length_nil] at hc
    simp at hc
    subst hc
    simp at hk

theorem archived_new {r : Rec} (h : r.Built) : (if r.fresh then r else r.archiveCurrentState).state = SState.new := by
  rcases h with rfl | ⟨hf, -⟩
  · rfl
  · rw [hf]; simp [Rec.archiveCurrentState, Rec.promote, Rec.state]

/-- Processing a prekey message on a record from the store. -/
theorem processV3_whole (E : Env) (pk spk : UInt32 → Option IdKeyPair) {r : Rec} (m : PreKeyMsg) (h : r.Built) :
    (∀ o, (processV3 E pk spk r m).1 = .ok o → (processV3 E pk spk r m).2.Whole ∧
      (o = none → ¬ Knows r m ∧ (m.struct.preKeyId = none ∨ ∃ i, m.struct.preKeyId = some i ∧ i.value = mediumMaxValue))) ∧
    ((processV3 E pk spk r m).1 = .panic ↔ ¬ Knows r m ∧ spk m.struct.signedPreKeyId = none) := by
  unfold processV3
  by_cases hk : r.hasSessionState m.struct.version (serPub m.baseKey) = true
  · rw [if_pos hk]
    have hkn := (hasSessionState_iff r m).1 hk
    refine ⟨fun o ho => ⟨?_, ?_⟩, by simp [hkn]⟩
    · rcases h with rfl | ⟨-, h⟩
      · exfalso
        obtain ⟨s, hs, -, hb⟩ := hkn
        have : s = SState.new := by simpa [Rec.new, Rec.state, Rec.prevStates] using hs
        subst this
        simp [SState.new] at hb
      · exact h
    · rintro rfl; simp at ho
  · rw [if_neg hk]
    have hkn : ¬ Knows r m := fun hh => hk ((hasSessionState_iff r m).2 hh)
    cases hs : spk m.struct.signedPreKeyId with
    | none => simp [hkn]
    | some sp =>
      simp only [hkn, reduceCtorEq, and_false, iff_false, not_false_eq_true, true_and]
      have key : ∀ ot : Option Key32, ∃ keys, calculateReceiverSession E.C
          { ourIdentity := E.identity, ourSignedPreKeyPriv := sp.priv, ourOneTimePriv := ot, theirBase := m.baseKey, theirIdentity := m.identityKey } = .ok keys :=
        fun ot => (calculateReceiverSession_ok E.C _).imp fun _ h => h.1
      cases hp : m.struct.preKeyId with
      | none =>
        obtain ⟨keys, hkeys⟩ := key none
        simp only [hkeys]
        refine ⟨fun o ho => ⟨?_, fun _ => .inl trivial⟩, by simp⟩
        refine h.start (whole_first (by simp [SState.setSenderChain]) (by simp [SState.setSenderChain]) (by simp) (by simp) rfl rfl ?_)
        show (if r.fresh then r else r.archiveCurrentState).state.receiverChains = []
        rw [archived_new h]; rfl
      | some id =>
        simp only
        cases hpk : pk id.value with
        | none => simp
        | some kp =>
          obtain ⟨keys, hkeys⟩ := key (some kp.priv)
          simp only [hkeys]
          refine ⟨fun o ho => ⟨?_, fun hon => ?_⟩, by simp⟩
          · refine h.start (whole_first (by simp [SState.setSenderChain]) (by simp [SState.setSenderChain]) (by simp) (by simp) rfl rfl ?_)
            show (if r.fresh then r else r.archiveCurrentState).state.receiverChains = []
            rw [archived_new h]; rfl
          · subst hon
            simp only [Res.ok.injEq] at ho
            split at ho
            · rename_i hv; exact .inr ⟨id, rfl, hv⟩
            · simp at ho

theorem buildFromBundle_whole (E : Env) (pos : Nat) (a : Addr) {r : Rec} (b : Bundle) (spk : Key32) (h : r.Built) :
    (buildFromBundle E pos a r b spk).1 ≠ .panic ∧ ((buildFromBundle E pos a r b spk).1 = .ok () → (buildFromBundle E pos a r b spk).2.1.Whole) := by
  unfold buildFromBundle
  cases hd : E.rng pos with
  | none => simp [generateKeyPair]
  | some d =>
    have hg : ∀ d : Key32, generateKeyPair E.C (some d) = .ok ⟨E.C.basePub (clamp d), some (clamp d)⟩ := fun _ => rfl
    simp only [hg]
    obtain ⟨derived, hder, -⟩ := calculateSenderSession_ok E.C { ourIdentity := E.identity, ourBasePriv := clamp d, theirIdentity := b.identityKey, theirSignedPreKey := spk, theirOneTime := b.preKeyPublic }
    simp only [hder]
    cases hd2 : E.rng (pos + 1) with
    | none => simp [generateKeyPair]
    | some d2 =>
      simp only [hg]
      rw [createChain_eq E.C derived.root spk ⟨E.C.basePub (clamp d2), some (clamp d2)⟩ rfl]
      refine ⟨by simp, fun _ => ?_⟩
      exact h.start (whole_first_sender (archived_new h) (by simp))


/-! ### Stores -/

/-- Every stored session can be loaded and is whole. -/
def Store.Whole (st : Store) : Prop := ∀ a ss, st.sessions a = some ss → ∃ r, Rec.ofStruct ss = .ok r ∧ r.fresh = false ∧ r.Whole

theorem Store.Whole.load {st : Store} (h : st.Whole) (a : Addr) : ∃ r, st.load a = .ok r ∧ r.Built ∧ (st.sessions a ≠ none → r.Whole) := by
  unfold Store.load
  cases hs : st.sessions a with
  | none => exact ⟨Rec.new, rfl, .inl rfl, fun h => absurd rfl h⟩
  | some ss =>
    obtain ⟨r, h1, h2, h3⟩ := h a ss hs
    simp only [h1]
    exact ⟨r, rfl, .inr ⟨h2, h3⟩, fun _ => h3⟩

theorem Rec.Whole.all {r : Rec} (h : r.Whole) : ∀ s ∈ r.state :: r.prevStates, s.Whole := by
  intro s hs
  rcases List.mem_cons.1 hs with rfl | hs
  · exact h.states _ (List.mem_cons_self ..)
  · obtain ⟨b, hb, rfl⟩ := List.mem_map.1 hs
    exact h.states b (List.mem_cons_of_mem _ hb)

theorem ofStates_whole {s : SState} {ps : List SState} (h : ∀ x ∈ s :: ps, x.Whole) : (Rec.ofStates s ps).Whole := by
  have hb : ∀ b ∈ (Rec.ofStates s ps).cur :: (Rec.ofStates s ps).prev, b < ps.length + 1 := by
    intro b hb
    rcases List.mem_cons.1 hb with rfl | hb
    · exact Nat.succ_pos _
    · obtain ⟨i, hi, rfl⟩ := List.mem_map.1 hb
      have := List.mem_range.1 hi
      omega
  refine ⟨fun b hm => ?_, hb⟩
  have := hb b hm
  show (((s :: ps)[b]?).getD SState.new).Whole
  rw [List.getElem?_eq_getElem (by simpa using this)]
  exact h _ (List.getElem_mem _)

/-- Writing whole sessions: no operation crashes, and the store stays whole. -/
theorem applyAll_whole {effs : List Effect} : ∀ {st : Store}, st.Whole → (∀ a r, Effect.storeSession a r ∈ effs → r.Whole) →
    (st.applyAll effs).1.Whole ∧ (st.applyAll effs).2 = true := by
  induction effs with
  | nil => intro st h _; exact ⟨h, rfl⟩
  | cons e effs ih =>
    intro st h he
    have key : ∃ st', st.apply e = some st' ∧ st'.Whole := by
      cases e with
      | saveIdentity a k => exact ⟨_, rfl, h⟩
      | removePreKey id => exact ⟨_, rfl, h⟩
      | storeSession a r =>
        have hw := he a r (List.mem_cons_self ..)
        obtain ⟨ss, hss⟩ := toStruct_of_init (r := r) (fun s hs => (hw.all s hs).init)
        refine ⟨{ st with sessions := upd st.sessions a (some ss) }, by simp [Store.apply, hss], ?_⟩
        intro b x hx
        by_cases hb : b = a
        · subst hb
          simp only [upd, if_true, Option.some.injEq] at hx
          subst hx
          exact ⟨_, Rec.ofStruct_toStruct hss, rfl, ofStates_whole hw.all⟩
        · simp only [upd, if_neg hb] at hx
          exact h b x hx
    obtain ⟨st', h1, h2⟩ := key
    unfold Store.applyAll
    rw [h1]
    exact ih h2 (fun a r hr => he a r (List.mem_cons_of_mem _ hr))

theorem finish_whole {α : Type} {st : Store} {res : Res α} {effs : List Effect} (h : st.Whole) (he : ∀ a r, Effect.storeSession a r ∈ effs → r.Whole) :
    (finish st res effs).1 = res ∧ (finish st res effs).2.Whole := by
  obtain ⟨h1, h2⟩ := applyAll_whole h he
  rw [finish_fst, finish_snd, h2]
  exact ⟨rfl, h1⟩

/-! ### The four calls on a whole store -/

theorem buildFromBundle_err_effs {E : Env} {pos pos' : Nat} {a : Addr} {r r' : Rec} {b : Bundle} {spk : Key32} {e : Err} {effs : List Effect}
    (h : buildFromBundle E pos a r b spk = (.err e, r', pos', effs)) : effs = [] := by
  unfold buildFromBundle at h
  revert h
  split
  · intro h; cases h; rfl
  · intro h; cases h
  · dsimp only
    split
    · intro h; cases h
    · split
      · intro h; cases h; rfl
      · intro h; cases h
      · split
        · intro h; cases h; rfl
        · intro h; cases h
        · split
          · intro h; cases h; rfl
          · intro h; cases h
          · intro h; cases h

theorem encrypt_whole {E : Env} (hS : StdSM E.S) {st : Store} (h : st.Whole) (a : Addr) (pt : Bytes) :
    (st.encrypt E a pt).2.Whole ∧ (st.sessions a = none → (st.encrypt E a pt).1 = .panic) ∧
    (st.sessions a ≠ none → pt.length < 2 ^ 63 → ∃ cm, (st.encrypt E a pt).1 = .ok cm) := by
  obtain ⟨r, hl, hb, hw⟩ := h.load a
  unfold Store.encrypt Store.encryptTrace
  simp only [hl]
  by_cases hs : st.sessions a = none
  · have hr : r = Rec.new := by simp only [Store.load, hs, Res.ok.injEq] at hl; exact hl.symm
    subst hr
    have he : encryptRec E a Rec.new pt = (.panic, Rec.new.set Rec.new.cur SState.new, []) := rfl
    simp only [he]
    obtain ⟨f1, f2⟩ := finish_whole (res := (.panic : Res CipherMsg)) (effs := []) h (by simp)
    exact ⟨f2, fun _ => f1, fun hh => absurd hs hh⟩
  · have hw := hw hs
    have hst : ∀ b r', Effect.storeSession b r' ∈ (encryptRec E a r pt).2.2 → r'.Whole := by
      intro b r' hm
      have h2 := encryptRec_whole (E := E) (a := a) (pt := pt) hw
      revert hm h2
      unfold encryptRec
      split <;> simp
      rintro - rfl h; exact h
    obtain ⟨f1, f2⟩ := finish_whole (res := (encryptRec E a r pt).1) h hst
    refine ⟨f2, fun hh => absurd hh hs, fun _ hpt => ?_⟩
    have hcur := hw.states r.cur (List.mem_cons_self ..)
    obtain ⟨cm, s', he⟩ := encryptState_total hS (s := r.state) hcur.version hcur.init pt hpt
    refine ⟨cm, f1.trans ?_⟩
    unfold encryptRec
    rw [he]

theorem decryptRec_stored {E : Env} {a b : Addr} {pos : Nat} {r r' : Rec} {m : SignalMsg} (hw : r.Whole)
    (hm : Effect.storeSession b r' ∈ (decryptRec E pos a r m).2.2.2) : r'.Whole := by
  have h2 := decryptWithRecord_whole E m pos hw
  revert hm h2
  unfold decryptRec
  generalize decryptWithRecord E pos r m = g
  obtain ⟨g, r2, p2⟩ := g
  cases g with
  | ok x => simp; rintro - rfl h; exact h
  | err e => simp
  | panic => simp

theorem decrypt_whole {E : Env} {st : Store} (h : st.Whole) (pos : Nat) (a : Addr) (m : SignalMsg) :
    (st.decrypt E pos a m).2.1.Whole ∧ (StdSM E.S → newSignalMessageFromStruct m.struct = .ok m → (st.decrypt E pos a m).1 = .panic → Jagged m) := by
  unfold Store.decrypt Store.decryptTrace
  cases hs : st.sessions a with
  | none =>
    obtain ⟨f1, f2⟩ := finish_whole (res := (.err .noSession : Res (Bytes × MsgKeys))) (effs := []) h (by simp)
    exact ⟨f2, fun _ _ hp => by simp only [] at hp; rw [f1] at hp; simp at hp⟩
  | some ss =>
    obtain ⟨r, hl, hb, hw⟩ := h.load a
    have hw := hw (by simp [hs])
    simp only [hl]
    obtain ⟨f1, f2⟩ := finish_whole (res := (decryptRec E pos a r m).1) (effs := (decryptRec E pos a r m).2.2.2) h (fun _ _ hm => decryptRec_stored hw hm)
    refine ⟨f2, fun hS hm hp => ?_⟩
    rw [f1] at hp
    refine Classical.byContradiction fun hj => decryptWithRecord_no_panic E hS hm hj pos hw ?_
    unfold decryptRec at hp
    generalize decryptWithRecord E pos r m = g at hp ⊢
    obtain ⟨g, r2, p2⟩ := g
    cases g <;> simp_all

theorem decryptPreKey_whole {E : Env} {st : Store} (h : st.Whole) (pos : Nat) (a : Addr) (m : PreKeyMsg) :
    (st.decryptPreKey E pos a m).2.1.Whole ∧
    (StdSM E.S → newSignalMessageFromStruct m.message.struct = .ok m.message → (st.decryptPreKey E pos a m).1 = .panic →
      Jagged m.message ∨ ∃ r, st.load a = .ok r ∧ ¬ Knows r m ∧ E.trusted st.identities a m.identityKey = true ∧
        (st.signedPreKeys m.struct.signedPreKeyId = none ∨ m.struct.preKeyId = none ∨ ∃ o, m.struct.preKeyId = some o ∧ o.value = mediumMaxValue)) := by
  obtain ⟨r, hl, hb, hw⟩ := h.load a
  unfold Store.decryptPreKey Store.decryptPreKeyTrace
  simp only [hl]
  obtain ⟨p1, p2⟩ := processV3_whole E st.preKeys st.signedPreKeys m hb
  have hproc : (∃ e, ∃ r1, process E st.identities st.preKeys st.signedPreKeys a r m = (.err e, r1, [])) ∨
      (∃ r1, process E st.identities st.preKeys st.signedPreKeys a r m = (.panic, r1, []) ∧ E.trusted st.identities a m.identityKey = true ∧
        (processV3 E st.preKeys st.signedPreKeys r m).1 = .panic) ∨
      (∃ o r1, process E st.identities st.preKeys st.signedPreKeys a r m = (.ok o, r1, [.saveIdentity a (some m.identityKey)]) ∧
        E.trusted st.identities a m.identityKey = true ∧ processV3 E st.preKeys st.signedPreKeys r m = (.ok o, r1)) := by
    unfold process
    cases ht : E.trusted st.identities a m.identityKey with
    | false => exact .inl ⟨_, _, rfl⟩
    | true =>
      simp only [Bool.true_eq_false, if_false]
      generalize processV3 E st.preKeys st.signedPreKeys r m = g
      obtain ⟨g, r1⟩ := g
      cases g with
      | err e => exact .inl ⟨_, _, rfl⟩
      | panic => exact .inr (.inl ⟨_, rfl, trivial, rfl⟩)
      | ok o => exact .inr (.inr ⟨_, _, rfl, trivial, rfl⟩)
  unfold decryptPreKeyRec
  rcases hproc with ⟨e, r1, hp⟩ | ⟨r1, hp, ht, hv⟩ | ⟨o, r1, hp, ht, hv⟩
  · simp only [hp]
    obtain ⟨f1, f2⟩ := finish_whole (res := (.err e : Res (Bytes × MsgKeys))) (effs := []) h (by simp)
    exact ⟨f2, fun _ _ hpan => by rw [f1] at hpan; simp at hpan⟩
  · simp only [hp]
    obtain ⟨f1, f2⟩ := finish_whole (res := (.panic : Res (Bytes × MsgKeys))) (effs := []) h (by simp)
    obtain ⟨q1, q2⟩ := p2.1 hv
    exact ⟨f2, fun _ _ _ => .inr ⟨r, rfl, q1, ht, .inl q2⟩⟩
  · simp only [hp]
    rw [hv] at p1
    obtain ⟨hw1, hnone⟩ := p1 o rfl
    have hw2 := decryptWithRecord_whole E m.message pos hw1
    have hnp : StdSM E.S → newSignalMessageFromStruct m.message.struct = .ok m.message → ¬ Jagged m.message → (decryptWithRecord E pos r1 m.message).1 ≠ .panic :=
      fun hS hm hj => decryptWithRecord_no_panic E hS hm hj pos hw1
    generalize decryptWithRecord E pos r1 m.message = g at hw2 hnp
    obtain ⟨g, r2, pos2⟩ := g
    cases g with
    | err e =>
      obtain ⟨f1, f2⟩ := finish_whole (res := (.err e : Res (Bytes × MsgKeys))) (effs := [.saveIdentity a (some m.identityKey)]) h (by simp)
      exact ⟨f2, fun _ _ hpan => by simp only at hpan; rw [f1] at hpan; simp at hpan⟩
    | panic =>
      obtain ⟨f1, f2⟩ := finish_whole (res := (.panic : Res (Bytes × MsgKeys))) (effs := [.saveIdentity a (some m.identityKey)]) h (by simp)
      exact ⟨f2, fun hS hm _ => .inl (Classical.byContradiction fun hj => hnp hS hm hj rfl)⟩
    | ok x =>
      cases o with
      | none =>
        obtain ⟨f1, f2⟩ := finish_whole (res := (.panic : Res (Bytes × MsgKeys))) (effs := [.saveIdentity a (some m.identityKey)] ++ [.storeSession a r2]) h
          (by intro b r' hr; simp at hr; rw [hr.2]; exact hw2)
        obtain ⟨q1, q2⟩ := hnone rfl
        exact ⟨f2, fun _ _ _ => .inr ⟨r, rfl, q1, ht, .inr q2⟩⟩
      | some o =>
        simp only
        by_cases he : o.isEmpty = true
        · simp only [he, if_true]
          obtain ⟨f1, f2⟩ := finish_whole (res := (.ok x : Res (Bytes × MsgKeys))) (effs := [.saveIdentity a (some m.identityKey)] ++ [.storeSession a r2]) h
            (by intro b r' hr; simp at hr; rw [hr.2]; exact hw2)
          exact ⟨f2, fun _ _ hpan => by rw [f1] at hpan; simp at hpan⟩
        · simp only [he, Bool.false_eq_true, if_false]
          obtain ⟨f1, f2⟩ := finish_whole (res := (.ok x : Res (Bytes × MsgKeys)))
            (effs := [.saveIdentity a (some m.identityKey)] ++ [.storeSession a r2] ++ [.removePreKey o.value]) h
            (by intro b r' hr; simp at hr; rw [hr.2]; exact hw2)
          exact ⟨f2, fun _ _ hpan => by rw [f1] at hpan; simp at hpan⟩

theorem processBundle_whole {E : Env} {st : Store} (h : st.Whole) (pos : Nat) (a : Addr) (b : Bundle) :
    (st.processBundle E pos a b).2.1.Whole ∧ (st.processBundle E pos a b).1 ≠ .panic := by
  have nothing : ∀ res : Res Unit, (finish st res []).1 = res ∧ (finish st res []).2.Whole := fun res => finish_whole h (by simp)
  unfold Store.processBundle Store.processBundleTrace
  have hc : checkBundle E st.identities a b ≠ .panic := by
    unfold checkBundle
    split
    · simp
    · split
      · simp
      · split <;> simp
  generalize checkBundle E st.identities a b = c at hc
  cases c with
  | err e => obtain ⟨f1, f2⟩ := nothing (.err e); exact ⟨f2, by simp only; rw [f1]; simp⟩
  | panic => exact absurd rfl hc
  | ok spk =>
    obtain ⟨r, hl, hb, hw⟩ := h.load a
    simp only [hl]
    obtain ⟨b1, b2⟩ := buildFromBundle_whole E pos a b spk hb
    have hor : (buildFromBundle E pos a r b spk).2.2.2 = [] ∨ (buildFromBundle E pos a r b spk).1 = .ok () ∧
        (buildFromBundle E pos a r b spk).2.2.2 = [.storeSession a (buildFromBundle E pos a r b spk).2.1, .saveIdentity a (some b.identityKey)] := by
      generalize hg : buildFromBundle E pos a r b spk = g at b1 ⊢
      obtain ⟨g, r1, p1, effs⟩ := g
      cases g with
      | panic => exact absurd rfl b1
      | ok u =>
        obtain ⟨-, -, -, -, -, -, -, -, -, -, -, -, he⟩ := buildFromBundle_ok hg
        exact .inr ⟨rfl, he⟩
      | err e => exact .inl (buildFromBundle_err_effs hg)
    generalize buildFromBundle E pos a r b spk = g at b1 b2 hor
    obtain ⟨g, r1, p1, effs⟩ := g
    have hst : ∀ c r', Effect.storeSession c r' ∈ effs → r'.Whole := by
      rcases hor with he | ⟨hok, he⟩
      · simp only at he; subst he; simp
      · simp only at he hok; subst he
        intro c r' hm
        simp at hm
        rw [hm.2]
        exact b2 hok
    obtain ⟨f1, f2⟩ := finish_whole (res := g) h hst
    exact ⟨f2, by rw [f1]; exact b1⟩

/-! ### Histories -/

/-- The user after some things done one after the other (calls of the API and maintenance of the stores); a call that crashes ends there, what it stored before
stays stored. -/
def Node.doAll (E : Env) (n : Node) (xs : List Errand) : Node := xs.foldl (fun n x => n.errand E x) n

theorem errand_whole {E : Env} (hS : StdSM E.S) {n : Node} (h : n.st.Whole) (x : Errand) : (n.errand E x).st.Whole := by
  cases x with
  | call c =>
    cases c with
    | encrypt a pt => exact (encrypt_whole hS h a pt).1
    | decrypt a m => exact (decrypt_whole h n.pos a m).1
    | decryptPreKey a m => exact (decryptPreKey_whole h n.pos a m).1
    | processBundle a b => exact (processBundle_whole h n.pos a b).1
  | deleteSession a =>
    intro b ss hb
    by_cases hba : b = a
    · subst hba; simp [Node.errand, upd] at hb
    · simp only [Node.errand, upd, if_neg hba] at hb; exact h b ss hb
  | _ => exact h

theorem doAll_whole {E : Env} (hS : StdSM E.S) : ∀ (xs : List Errand) {n : Node}, n.st.Whole → (n.doAll E xs).st.Whole
  | [], _, h => h
  | x :: xs, _, h => doAll_whole hS xs (errand_whole hS h x)

/-- **C91.** After any history of calls and store maintenance that began with no sessions, whatever was received and stored in between: `ProcessBundle` never
crashes; `Encrypt` to a peer with a session succeeds; `Decrypt` of a message parsed from any bytes crashes only if its ciphertext is longer than a block and
no whole number of blocks; `DecryptMessage` crashes only then or for a trusted identity and a new base key when the signed prekey is unknown or the one-time
prekey id is missing or 0xFFFFFF.  (What is missing are these cases.) -/
theorem C91_no_crash_partial (E : Env) (hS : StdSM E.S) (n0 : Node) (h0 : ∀ a, n0.st.sessions a = none) (xs : List Errand) :
    let n := n0.doAll E xs
    (∀ a b, (n.st.processBundle E n.pos a b).1 ≠ .panic) ∧
    (∀ a pt, n.st.sessions a ≠ none → pt.length < 2 ^ 63 → ∃ cm, (n.st.encrypt E a pt).1 = .ok cm) ∧
    (∀ a bytes m, newSignalMessageFromBytes E.S bytes = .ok m → (n.st.decrypt E n.pos a m).1 = .panic →
      16 ≤ (m.struct.cipherText.getD []).length ∧ (m.struct.cipherText.getD []).length % 16 ≠ 0) ∧
    (∀ a bytes m, newPreKeyMessageFromBytes E.P E.S bytes = .ok m → (n.st.decryptPreKey E n.pos a m).1 = .panic →
      (16 ≤ (m.message.struct.cipherText.getD []).length ∧ (m.message.struct.cipherText.getD []).length % 16 ≠ 0) ∨
      ∃ r, n.st.load a = .ok r ∧ ¬ Knows r m ∧ E.trusted n.st.identities a m.identityKey = true ∧
        (n.st.signedPreKeys m.struct.signedPreKeyId = none ∨ m.struct.preKeyId = none ∨ ∃ o, m.struct.preKeyId = some o ∧ o.value = 0xFFFFFF)) := by
  intro n
  have hw : n.st.Whole := doAll_whole hS xs (fun a ss hs => by rw [h0 a] at hs; cases hs)
  have parsed : ∀ {bytes : Bytes} {m : SignalMsg}, newSignalMessageFromBytes E.S bytes = .ok m → newSignalMessageFromStruct m.struct = .ok m := by
    intro bytes m h
    unfold newSignalMessageFromBytes at h
    cases hd : E.S.de bytes with
    | err e => simp [hd] at h
    | panic => simp [hd] at h
    | ok st =>
      simp only [hd, Res.bind_ok] at h
      rw [newSignalMessageFromStruct_struct h]; exact h
  refine ⟨fun a b => (processBundle_whole hw n.pos a b).2, fun a pt hs hpt => (encrypt_whole hS hw a pt).2.2 hs hpt, fun a bytes m hm hp => ?_, fun a bytes m hm hp => ?_⟩
  · exact (decrypt_whole hw n.pos a m).2 hS (parsed hm) hp
  · refine (decryptPreKey_whole hw n.pos a m).2 hS ?_ hp
    unfold newPreKeyMessageFromBytes at hm
    cases hd : E.P.de bytes with
    | err e => simp [hd] at hm
    | panic => simp [hd] at hm
    | ok st =>
      simp only [hd, Res.bind_ok] at hm
      unfold newPreKeyMessageFromStruct at hm
      cases hv : checkVersion st.version with
      | err e => simp [hv] at hm
      | panic => simp [hv] at hm
      | ok u =>
        simp only [hv, Res.bind_ok] at hm
        split at hm
        · rename_i bk ik msg _ _ _
          cases h1 : decodePoint bk with
          | err e => simp [h1] at hm
          | panic => simp [h1] at hm
          | ok base =>
            cases h2 : decodePoint ik with
            | err e => simp [h1, h2] at hm
            | panic => simp [h1, h2] at hm
            | ok idk =>
              simp only [h1, h2, Res.bind_ok] at hm
              cases h3 : newSignalMessageFromBytes E.S msg with
              | err e => simp [h3] at hm
              | panic => simp [h3] at hm
              | ok x =>
                simp only [h3, Res.map_ok, Res.ok.injEq] at hm
                subst hm
                exact parsed h3
        · simp at hm

/-- **C91 (what is missing, 1).** `Encrypt` to a peer without a session crashes instead of returning an error. -/
theorem C91_no_session_false (E : Env) (st : Store) (live : LiveStore) (a : Addr) (pt : Bytes) :
    (st.sessions a = none → (st.encrypt E a pt).1 = .panic) ∧ (live.sessions a = none → (live.encrypt E a pt).1 = .panic) := by
  constructor
  · intro hs
    simp [Store.encrypt, Store.encryptTrace, Store.load, hs, encryptRec, encryptState, Rec.new, Rec.state, SState.new, finish, Store.applyAll]
  · intro hs
    simp [LiveStore.encrypt, LiveStore.load, hs, encryptRec, encryptState, Rec.new, Rec.state, SState.new]

/-- **C91 (what is missing, 2).** Whoever has a trusted identity (on first use: anyone) crashes the recipient with a prekey message that names a signed prekey the
recipient does not have: every such message does, whatever else it contains. -/
theorem C91_unknown_signed_prekey_false (E : Env) (st : Store) (live : LiveStore) (pos : Nat) (a : Addr) (m : PreKeyMsg) :
    (∀ r, st.load a = .ok r → ¬ Knows r m → E.trusted st.identities a m.identityKey = true → st.signedPreKeys m.struct.signedPreKeyId = none →
      (st.decryptPreKey E pos a m).1 = .panic) ∧
    (¬ Knows (live.load a) m → E.trusted live.identities a m.identityKey = true → live.signedPreKeys m.struct.signedPreKeyId = none →
      (live.decryptPreKey E pos a m).1 = .panic) := by
  have key : ∀ (ids : Addr → Option Key32) (pk spk : UInt32 → Option IdKeyPair) (r : Rec), ¬ Knows r m → E.trusted ids a m.identityKey = true →
      spk m.struct.signedPreKeyId = none → decryptPreKeyRec E ids pk spk pos a r m = (.panic, r, pos, []) := by
    intro ids pk spk r hk ht hs
    have hk' : ¬ (r.hasSessionState m.struct.version (serPub m.baseKey) = true) := fun h => hk ((hasSessionState_iff r m).1 h)
    unfold decryptPreKeyRec process processV3
    simp [ht, hk', hs]
  constructor
  · intro r hl hk ht hs
    unfold Store.decryptPreKey Store.decryptPreKeyTrace
    simp only [hl, key st.identities st.preKeys st.signedPreKeys r hk ht hs]
    rfl
  · intro hk ht hs
    unfold LiveStore.decryptPreKey
    simp only [key live.identities live.preKeys live.signedPreKeys (live.load a) hk ht hs]

/-- **C91 (what is missing, 3).** A peer (who knows the chain key) crashes the recipient with a message made by the library's own constructor from a ciphertext that is
no whole number of blocks.  Nothing is stored, so the same message crashes the recipient again whenever it is processed. -/
theorem C91_jagged_false (E : Env) (hS : StdSM E.S) (st : Store) (pos : Nat) (a : Addr) (r : Rec) (hs : st.sessions a ≠ none) (hl : st.load a = .ok r) (hw : r.Whole)
    (rk : Key32) (c : Chain) (hc : r.state.receiverChain rk = some c) (prev : UInt32) (body : Bytes) (hlen : 16 ≤ body.length) (hmod : body.length % 16 ≠ 0)
    (m : SignalMsg) (hm : newSignalMessage E.C E.S currentVersion c.chainKey.index prev (c.chainKey.msgKeys E.C).macKey rk body r.state.remoteIdentity r.state.localIdentity = .ok m) :
    ∃ pos', st.decrypt E pos a m = (.panic, st, pos') := by
  have hcur : r.state.Whole := hw.states r.cur (List.mem_cons_self ..)
  have hvm := C24_mac_verifies _ _ _ _ _ _ _ _ _ _ _ hm
  obtain ⟨body', mac, -, -, hv1, hv2, rfl⟩ := newSignalMessage_ok hm
  have hm' : newSignalMessageFromStruct ⟨some (serPub rk), c.chainKey.index, prev, some body, currentVersion, some mac⟩ =
      .ok ⟨⟨some (serPub rk), c.chainKey.index, prev, some body, currentVersion, some mac⟩, rk⟩ := by
    simp [newSignalMessageFromStruct, checkVersion_ok.2 ⟨hv1, hv2⟩]
  have hg : getOrCreateChainKey E.C (E.rng pos) r.state rk = (.ok c.chainKey, r.state, false) := by
    simp [getOrCreateChainKey, hc]
  have hk : ∃ s2, getOrCreateMessageKeys E.C r.state rk c.chainKey c.chainKey.index = (.ok (c.chainKey.msgKeys E.C), s2) := by
    refine ⟨r.state.modifyChain rk (fun _ => (c.recv E.C c.chainKey.index).2), ?_⟩
    rw [getOrCreateMessageKeys_eq E.C r.state rk c c.chainKey.index hc]
    have : (c.recv E.C c.chainKey.index).1 = .ok (c.chainKey.msgKeys E.C) := by
      unfold Chain.recv
      rw [if_neg (by simp [UInt32.lt_irrefl]), if_neg (by rw [UInt32.sub_self]; decide)]
      rw [UInt32.sub_self]
      rfl
    rw [this]
  obtain ⟨s2, hk⟩ := hk
  have hp := (decryptWithState_panic_iff E hS (E.rng pos) hcur hm').2
    ⟨⟨hcur.version.symm, _, _, _, _, _, hg, hk, hvm⟩, hlen, hmod⟩
  generalize hM : (⟨⟨some (serPub rk), c.chainKey.index, prev, some body, currentVersion, some mac⟩, rk⟩ : SignalMsg) = M at *
  have : ∃ s' d, decryptWithState E (E.rng pos) (r.heap r.cur) M = (.panic, s', d) := by
    change (decryptWithState E (E.rng pos) (r.heap r.cur) M).1 = .panic at hp
    generalize decryptWithState E (E.rng pos) (r.heap r.cur) M = g at hp
    obtain ⟨g, s', d⟩ := g
    exact ⟨s', d, by rw [show g = .panic from hp]⟩
  obtain ⟨s', d, hd⟩ := this
  cases hss : st.sessions a with
  | none => exact absurd hss hs
  | some ss =>
    unfold Store.decrypt Store.decryptTrace decryptRec decryptWithRecord
    simp only [hss, hl, hd]
    exact ⟨_, rfl⟩

/-- **C91 (what is missing, 4).** With a store that hands out the stored object, holding a session it once read from bytes: when the random source fails while
`ProcessBundle` makes its second key pair, `ProcessBundle` returns an error, but the session is gone, and the next `Encrypt` to that peer crashes. -/
theorem C91_failed_process_bundle_false (E : Env) (lv : LiveStore) (pos : Nat) (a : Addr) (r : Rec) (hr : lv.sessions a = some r) (hf : r.fresh = false)
    (b : Bundle) (spk : Key32) (hb : checkBundle E lv.identities a b = .ok spk) (x : Key32) (h0 : E.rng pos = some x) (h1 : E.rng (pos + 1) = none) (pt : Bytes) :
    ∃ e lv' pos', lv.processBundle E pos a b = (.err e, lv', pos') ∧ (lv'.encrypt E a pt).1 = .panic := by
  have hl : lv.load a = r := by simp [LiveStore.load, hr]
  obtain ⟨k, hk, -⟩ := calculateSenderSession_ok E.C
    { ourIdentity := E.identity, ourBasePriv := clamp x, theirIdentity := b.identityKey, theirSignedPreKey := spk, theirOneTime := b.preKeyPublic }
  have hbuild : buildFromBundle E pos a r b spk = (.err .randFailure, r.archiveCurrentState, pos + 2, []) := by
    simp [buildFromBundle, h0, h1, hf, generateKeyPair, hk]
  refine ⟨.randFailure, lv.finish a r.archiveCurrentState [], pos + 2, ?_, ?_⟩
  · simp [LiveStore.processBundle, hb, hl, hbuild]
  · have hs : r.archiveCurrentState.state = SState.new := by
      simp [Rec.archiveCurrentState, Rec.promote, Rec.state]
    have : (lv.finish a r.archiveCurrentState []).load a = r.archiveCurrentState := by simp [LiveStore.load, LiveStore.finish, upd]
    simp [LiveStore.encrypt, this, encryptRec, encryptState, hs, SState.new]

/-! ### Concrete cases -/

namespace Toy
set_option maxRecDepth 100000

/-- A history: Alice processes Bob's bundle, sends, and gets the reply. -/
def aliceDoes : List Errand :=
  [.call (.processBundle bob bundle), .call (.encrypt bob [104, 105]), .call (.encrypt bob [1, 2, 3]), .call (.decrypt bob reply1)]

example : (∀ a, emptyStore.sessions a = none) ∧ ((Node.mk emptyStore 0).doAll aliceEnv aliceDoes).st.sessions bob ≠ none := by
  refine ⟨fun _ => rfl, ?_⟩
  decide +kernel

/-- A message for Bob from the chain of his session, with a ciphertext of 17 bytes. -/
def jagged : Res SignalMsg :=
  match (stateOf bob1 alice).receiverChains with
  | c :: _ => newSignalMessage bobEnv.C bobEnv.S currentVersion c.chainKey.index 0 (c.chainKey.msgKeys bobEnv.C).macKey c.pair.pub (List.replicate 17 0)
      (stateOf bob1 alice).remoteIdentity (stateOf bob1 alice).localIdentity
  | [] => .panic

/-- It crashes Bob. -/
example : ∃ m, jagged = .ok m ∧ (bob1.decrypt bobEnv 5 alice m).1 = .panic := by
  refine ⟨match jagged with | .ok m => m | _ => dummyMsg.message, by decide +kernel, by decide +kernel⟩

/-- So does Alice's first message when it names signed prekey 8, which Bob does not have; with 7 it is opened. -/
example : (bobStore.decryptPreKey bobEnv 0 alice { msg1 with struct := { msg1.struct with signedPreKeyId := 8 } }).1 = .panic ∧
    (bobStore.decryptPreKey bobEnv 0 alice msg1).1.isOk = true := by decide +kernel

/-- Alice's live store after reading her session from bytes, and a random source that fails at the second read. -/
def aliceLive : LiveStore := ⟨fun a => if a = bob then some (recOf alice1 bob) else none, alice1.identities, fun _ => none, fun _ => none⟩
def failing : Env := { aliceEnv with rng := fun n => if n = 0 then aliceEnv.rng 0 else none }

example : (recOf alice1 bob).fresh = false ∧ (aliceLive.encrypt failing bob [1]).1.isOk = true ∧
    ((aliceLive.processBundle failing 0 bob bundle).2.1.encrypt failing bob [1]).1 = .panic := by decide +kernel

end Toy

end Verif
