import Verif.Model.ByteStore
import Verif.Props.Json
import Verif.Proofs.Records
/-
States that differ only in the public half of a signed prekey used as first sending ratchet key behave alike.
-/
namespace Verif

/-- `s'` is `s`, or `s` without receiver chains and with another public half in the sender chain's pair. -/
def PubVar (s s' : SState) : Prop :=
  s = s' ∨ (s.receiverChains = [] ∧ ∃ c p, s.senderChain = some c ∧ s' = { s with senderChain := some { c with pair := { c.pair with pub := p } } })

theorem PubVar.refl (s : SState) : PubVar s s := .inl rfl

theorem PubVar.base {s s' : SState} (h : PubVar s s') : s'.senderBaseKey = s.senderBaseKey := by
  rcases h with rfl | ⟨-, c, p, -, rfl⟩ <;> rfl
theorem PubVar.version {s s' : SState} (h : PubVar s s') : s'.version = s.version := by
  rcases h with rfl | ⟨-, c, p, -, rfl⟩ <;> rfl
theorem PubVar.remote {s s' : SState} (h : PubVar s s') : s'.remoteIdentity = s.remoteIdentity := by
  rcases h with rfl | ⟨-, c, p, -, rfl⟩ <;> rfl
theorem PubVar.init {s s' : SState} (h : PubVar s s') : s'.Initialised ↔ s.Initialised := by
  rcases h with rfl | ⟨-, c, p, hc, rfl⟩
  · rfl
  · simp [SState.Initialised, hc]

theorem createChain_pub (C : Crypto) (root : Bytes) (eph : Key32) (kp : KeyPair) (p : Key32) :
    createChain C root eph { kp with pub := p } = createChain C root eph kp := rfl

/-- The second form of `PubVar`. -/
structure PubDiff (s s' : SState) (c : Chain) (p : Key32) : Prop where
  chains : s.receiverChains = []
  sender : s.senderChain = some c
  eq : s' = { s with senderChain := some { c with pair := { c.pair with pub := p } } }

theorem PubDiff.pubVar {s s' : SState} {c : Chain} {p : Key32} (h : PubDiff s s' c p) : PubVar s s' := .inr ⟨h.chains, c, p, h.sender, h.eq⟩

theorem getOrCreateChainKey_pub (C : Crypto) (draw : Option Key32) (s s' : SState) (eph : Key32) (c : Chain) (p : Key32) (h : PubDiff s s' c p) :
    (∃ ck s1 d, getOrCreateChainKey C draw s eph = (.ok ck, s1, d) ∧ getOrCreateChainKey C draw s' eph = (.ok ck, s1, d)) ∨
    (∃ r d, (∀ k, r ≠ .ok k) ∧ getOrCreateChainKey C draw s eph = (r, s, d) ∧ getOrCreateChainKey C draw s' eph = (r, s', d)) := by
  obtain ⟨hr, hc, he⟩ := h
  have h1 : s.receiverChain eph = none := by rw [SState.receiverChain, hr]; rfl
  have h2 : s'.receiverChain eph = none := by rw [he]; exact h1
  have hroot' : s'.rootKey = s.rootKey := by rw [he]
  obtain ⟨c', hc', hpair, hck⟩ : ∃ c', s'.senderChain = some c' ∧ (∀ root, createChain C root eph c'.pair = createChain C root eph c.pair) ∧
      c'.chainKey = c.chainKey := ⟨{ c with pair := { c.pair with pub := p } }, by rw [he], fun _ => rfl, rfl⟩
  have hfin : ∀ (root : Bytes) (ck : ChainKey) (n : UInt32) (kp : KeyPair) (sk : ChainKey),
      SState.setSenderChain { (({ s' with rootKey := some root } : SState).addReceiverChain eph ck) with previousCounter := n } kp sk =
      SState.setSenderChain { (({ s with rootKey := some root } : SState).addReceiverChain eph ck) with previousCounter := n } kp sk := by
    intros; rw [he]; rfl
  clear he
  cases hroot : s.rootKey with
  | none =>
    rw [hroot] at hroot'
    refine .inr ⟨.panic, false, by simp, ?_, ?_⟩
    · simp only [getOrCreateChainKey, h1, hroot]
    · simp only [getOrCreateChainKey, h2, hroot']
  | some root =>
    rw [hroot] at hroot'
    cases h3 : createChain C root eph c.pair with
    | err e =>
      refine .inr ⟨.err e, false, by simp, ?_, ?_⟩
      · simp only [getOrCreateChainKey, h1, hroot, hc, h3]
      · simp only [getOrCreateChainKey, h2, hroot', hc', hpair, h3]
    | panic =>
      refine .inr ⟨.panic, false, by simp, ?_, ?_⟩
      · simp only [getOrCreateChainKey, h1, hroot, hc, h3]
      · simp only [getOrCreateChainKey, h2, hroot', hc', hpair, h3]
    | ok recv =>
      cases h4 : generateKeyPair C draw with
      | err e =>
        refine .inr ⟨.err e, true, by simp, ?_, ?_⟩
        · simp only [getOrCreateChainKey, h1, hroot, hc, h3, h4]
        · simp only [getOrCreateChainKey, h2, hroot', hc', hpair, h3, h4]
      | panic =>
        refine .inr ⟨.panic, true, by simp, ?_, ?_⟩
        · simp only [getOrCreateChainKey, h1, hroot, hc, h3, h4]
        · simp only [getOrCreateChainKey, h2, hroot', hc', hpair, h3, h4]
      | ok kp =>
        cases h5 : createChain C recv.root eph kp with
        | err e =>
          refine .inr ⟨.err e, true, by simp, ?_, ?_⟩
          · simp only [getOrCreateChainKey, h1, hroot, hc, h3, h4, h5]
          · simp only [getOrCreateChainKey, h2, hroot', hc', hpair, h3, h4, h5]
        | panic =>
          refine .inr ⟨.panic, true, by simp, ?_, ?_⟩
          · simp only [getOrCreateChainKey, h1, hroot, hc, h3, h4, h5]
          · simp only [getOrCreateChainKey, h2, hroot', hc', hpair, h3, h4, h5]
        | ok send =>
          refine .inl ⟨recv.chain, SState.setSenderChain { (({ s with rootKey := some send.root } : SState).addReceiverChain eph recv.chain) with
            previousCounter := maxU32 (c.chainKey.index - 1) 0 } kp send.chain, true, ?_, ?_⟩
          · simp only [getOrCreateChainKey, h1, hroot, hc, h3, h4, h5]
          · simp only [getOrCreateChainKey, h2, hroot', hc', hpair, h3, h4, h5, hck, ← hfin]

theorem decryptWithState_pub (E : Env) (d : Option Key32) (m : SignalMsg) {s s' : SState} (h : PubVar s s') :
    (decryptWithState E d s' m).1 = (decryptWithState E d s m).1 ∧
    PubVar (decryptWithState E d s m).2.1 (decryptWithState E d s' m).2.1 ∧
    (decryptWithState E d s' m).2.2 = (decryptWithState E d s m).2.2 ∧
    (∀ x, (decryptWithState E d s m).1 = .ok x → (decryptWithState E d s' m).2.1 = (decryptWithState E d s m).2.1) := by
  rcases h with rfl | ⟨hr, c, p, hc, he⟩
  · exact ⟨rfl, .inl rfl, rfl, fun _ _ => rfl⟩
  · have hd : PubDiff s s' c p := ⟨hr, hc, he⟩
    obtain ⟨c', hc'⟩ : ∃ c', s'.senderChain = some c' := ⟨_, by rw [he]⟩
    have hver : s'.version = s.version := by rw [he]
    clear he
    have fail : ∀ res d', (∀ x, res ≠ .ok x) → decryptWithState E d s m = (res, s, d') → decryptWithState E d s' m = (res, s', d') →
        (decryptWithState E d s' m).1 = (decryptWithState E d s m).1 ∧ PubVar (decryptWithState E d s m).2.1 (decryptWithState E d s' m).2.1 ∧
        (decryptWithState E d s' m).2.2 = (decryptWithState E d s m).2.2 ∧
        (∀ x, (decryptWithState E d s m).1 = .ok x → (decryptWithState E d s' m).2.1 = (decryptWithState E d s m).2.1) := by
      intro res d' hno e1 e2
      rw [e1, e2]
      exact ⟨rfl, hd.pubVar, rfl, fun x hx => absurd hx (hno x)⟩
    by_cases hv : m.struct.version ≠ s.version
    · refine fail (.err .wrongVersion) false (by simp) ?_ ?_
      · simp only [decryptWithState, hc]; rw [if_pos hv]
      · simp only [decryptWithState, hc', hver]; rw [if_pos hv]
    · rcases getOrCreateChainKey_pub E.C d s s' m.senderRatchetKey c p hd with ⟨ck, s1, d', h1, h2⟩ | ⟨r, d', hno, h1, h2⟩
      · have : decryptWithState E d s' m = decryptWithState E d s m := by
          simp only [decryptWithState, hc, hc', hver, h1, h2]
          rw [if_neg hv, if_neg hv]
        rw [this]
        exact ⟨rfl, .inl rfl, rfl, fun _ _ => rfl⟩
      · cases r with
        | ok k => exact absurd rfl (hno k)
        | err e =>
          refine fail (.err e) d' (by simp) ?_ ?_
          · simp only [decryptWithState, hc, h1]; rw [if_neg hv]
          · simp only [decryptWithState, hc', hver, h2]; rw [if_neg hv]
        | panic =>
          refine fail .panic d' (by simp) ?_ ?_
          · simp only [decryptWithState, hc, h1]; rw [if_neg hv]
          · simp only [decryptWithState, hc', hver, h2]; rw [if_neg hv]

/-- Records of the same shape whose objects are related. -/
structure RecRel (r r' : Rec) : Prop where
  next : r'.next = r.next
  cur : r'.cur = r.cur
  prev : r'.prev = r.prev
  fresh : r'.fresh = r.fresh
  heap : ∀ a, PubVar (r.heap a) (r'.heap a)
  versions : ∀ a, InInt64 (r.heap a).version

theorem RecRel.set {r r' : Rec} (h : RecRel r r') (a : Nat) {s s' : SState} (hs : PubVar s s') (hv : InInt64 s.version) : RecRel (r.set a s) (r'.set a s') := by
  refine ⟨h.next, h.cur, h.prev, h.fresh, fun b => ?_, fun b => ?_⟩
  · rw [Rec.set_heap, Rec.set_heap]
    split
    · exact hs
    · exact h.heap b
  · rw [Rec.set_heap]
    split
    · exact hv
    · exact h.versions b

theorem RecRel.promote {r r' : Rec} (h : RecRel r r') (a : Nat) : RecRel (r.promote a) (r'.promote a) := by
  refine ⟨h.next, rfl, ?_, h.fresh, h.heap, h.versions⟩
  simp only [Rec.promote, h.cur, h.prev]

theorem inInt64_zero : InInt64 SState.new.version := by simp [InInt64, SState.new]

theorem RecRel.archive {r r' : Rec} (h : RecRel r r') : RecRel r.archiveCurrentState r'.archiveCurrentState := by
  unfold Rec.archiveCurrentState
  rw [h.next]
  refine RecRel.promote (r := { r with heap := fun x => if x = r.next then SState.new else r.heap x, next := r.next + 1 })
    (r' := { r' with heap := fun x => if x = r.next then SState.new else r'.heap x, next := r.next + 1 })
    ⟨rfl, h.cur, h.prev, h.fresh, fun b => ?_, fun b => ?_⟩ _
  · dsimp only
    split
    · exact .inl rfl
    · exact h.heap b
  · dsimp only
    split
    · exact inInt64_zero
    · exact h.versions b

theorem RecRel.refl {r : Rec} (h : ∀ a, InInt64 (r.heap a).version) : RecRel r r := ⟨rfl, rfl, rfl, rfl, fun _ => .inl rfl, h⟩

theorem RecRel.state {r r' : Rec} (h : RecRel r r') : PubVar r.state r'.state := by
  rw [Rec.state, Rec.state, h.cur]; exact h.heap _

theorem decryptWithState_version (E : Env) (d : Option Key32) (s : SState) (m : SignalMsg) (h : InInt64 s.version) :
    InInt64 (decryptWithState E d s m).2.1.version := by rw [(decryptWithState_kept E d s m).version]; exact h

theorem tryPrevious_rel (E : Env) (m : SignalMsg) : ∀ (l : List Nat) (i : Nat) (r r' : Rec) (pos : Nat), RecRel r r' →
    (tryPrevious E m l i r' pos).1 = (tryPrevious E m l i r pos).1 ∧
    (tryPrevious E m l i r' pos).2.2 = (tryPrevious E m l i r pos).2.2 ∧
    RecRel (tryPrevious E m l i r pos).2.1 (tryPrevious E m l i r' pos).2.1 ∧
    (∀ x, (tryPrevious E m l i r pos).1 = .ok x → (tryPrevious E m l i r' pos).2.1.state = (tryPrevious E m l i r pos).2.1.state) := by
  intro l
  induction l with
  | nil => intro i r r' pos h; exact ⟨rfl, rfl, h, fun x hx => by cases hx⟩
  | cons a rest ih =>
    intro i r r' pos h
    obtain ⟨e1, e2, e3, e4⟩ := decryptWithState_pub E (E.rng pos) m (h.heap a)
    have hv := decryptWithState_version E (E.rng pos) (r.heap a) m (h.versions a)
    simp only [tryPrevious]
    generalize ho : decryptWithState E (E.rng pos) (r.heap a) m = o at *
    generalize ho' : decryptWithState E (E.rng pos) (r'.heap a) m = o' at *
    obtain ⟨res, s1, d⟩ := o
    obtain ⟨res', s1', d'⟩ := o'
    dsimp only at e1 e2 e3 e4 hv
    subst e1; subst e3
    cases res' with
    | err e => exact ih (i + 1) _ _ _ (h.set a e2 hv)
    | panic => exact ⟨rfl, rfl, h.set a e2 hv, fun x hx => by cases hx⟩
    | ok x =>
      have hset := h.set a e2 hv
      refine ⟨rfl, rfl, RecRel.promote (r := { r.set a s1 with prev := (r.set a s1).prev.eraseIdx i ++ (r.set a s1).prev.drop ((r.set a s1).prev.length - 1) })
        (r' := { r'.set a s1' with prev := (r'.set a s1').prev.eraseIdx i ++ (r'.set a s1').prev.drop ((r'.set a s1').prev.length - 1) })
        ⟨hset.next, hset.cur, ?_, hset.fresh, hset.heap, hset.versions⟩ a, fun _ _ => ?_⟩
      · simp only [Rec.set_prev, h.prev]
      · show (r'.set a s1').heap a = (r.set a s1).heap a
        rw [Rec.set_heap_same, Rec.set_heap_same]
        exact e4 x rfl

theorem decryptWithRecord_rel (E : Env) (m : SignalMsg) (r r' : Rec) (pos : Nat) (h : RecRel r r') :
    (decryptWithRecord E pos r' m).1 = (decryptWithRecord E pos r m).1 ∧
    (decryptWithRecord E pos r' m).2.2 = (decryptWithRecord E pos r m).2.2 ∧
    RecRel (decryptWithRecord E pos r m).2.1 (decryptWithRecord E pos r' m).2.1 ∧
    (∀ x, (decryptWithRecord E pos r m).1 = .ok x → (decryptWithRecord E pos r' m).2.1.state = (decryptWithRecord E pos r m).2.1.state) := by
  obtain ⟨e1, e2, e3, e4⟩ := decryptWithState_pub E (E.rng pos) m (h.heap r.cur)
  have hv := decryptWithState_version E (E.rng pos) (r.heap r.cur) m (h.versions r.cur)
  simp only [decryptWithRecord, h.cur, h.prev]
  generalize ho : decryptWithState E (E.rng pos) (r.heap r.cur) m = o at *
  generalize ho' : decryptWithState E (E.rng pos) (r'.heap r.cur) m = o' at *
  obtain ⟨res, s1, d⟩ := o
  obtain ⟨res', s1', d'⟩ := o'
  dsimp only at e1 e2 e3 e4 hv
  subst e1; subst e3
  cases res' with
  | err e => exact tryPrevious_rel E m _ _ _ _ _ (h.set _ e2 hv)
  | panic => exact ⟨rfl, rfl, h.set _ e2 hv, fun x hx => by cases hx⟩
  | ok x =>
    refine ⟨rfl, rfl, h.set _ e2 hv, fun _ _ => ?_⟩
    show (r'.set r.cur s1').heap r'.cur = (r.set r.cur s1).heap r.cur
    rw [h.cur, Rec.set_heap_same, Rec.set_heap_same]
    exact e4 x rfl

/-- Store operations with related records. -/
inductive EffRel : Effect → Effect → Prop where
  | identity (a : Addr) (k : Option Key32) : EffRel (.saveIdentity a k) (.saveIdentity a k)
  | session (a : Addr) {r r' : Rec} (h : RecRel r r') (hs : r'.state = r.state) : EffRel (.storeSession a r) (.storeSession a r')
  | remove (id : UInt32) : EffRel (.removePreKey id) (.removePreKey id)

theorem encryptState_version (E : Env) (s : SState) (pt : Bytes) : (encryptState E s pt).2.version = s.version := by
  unfold encryptState
  split
  · rfl
  · dsimp only
    split
    · rfl
    · rfl
    · split
      · rfl
      · rfl
      · split
        · rfl
        · split <;> rfl

theorem encryptRec_rel (E : Env) (a : Addr) (pt : Bytes) {r r' : Rec} (h : RecRel r r') (hs : r'.state = r.state) :
    (encryptRec E a r' pt).1 = (encryptRec E a r pt).1 ∧ List.Forall₂ EffRel (encryptRec E a r pt).2.2 (encryptRec E a r' pt).2.2 := by
  have hv := encryptState_version E r.state pt
  simp only [encryptRec, hs, h.cur]
  generalize encryptState E r.state pt = o at *
  obtain ⟨res, s'⟩ := o
  cases res with
  | err e => exact ⟨rfl, .nil⟩
  | panic => exact ⟨rfl, .nil⟩
  | ok x =>
    refine ⟨rfl, .cons (.identity _ _) (.cons (.session _ (h.set _ (.inl rfl) ?_) ?_) .nil)⟩
    · rw [show s'.version = r.state.version from hv]; exact h.versions _
    · show (r'.set r.cur s').heap r'.cur = (r.set r.cur s').heap r.cur
      rw [h.cur, Rec.set_heap_same, Rec.set_heap_same]

theorem decryptRec_rel (E : Env) (a : Addr) (m : SignalMsg) (pos : Nat) {r r' : Rec} (h : RecRel r r') :
    (decryptRec E pos a r' m).1 = (decryptRec E pos a r m).1 ∧ (decryptRec E pos a r' m).2.2.1 = (decryptRec E pos a r m).2.2.1 ∧
    List.Forall₂ EffRel (decryptRec E pos a r m).2.2.2 (decryptRec E pos a r' m).2.2.2 := by
  obtain ⟨e1, e2, e3, e4⟩ := decryptWithRecord_rel E m r r' pos h
  simp only [decryptRec]
  generalize decryptWithRecord E pos r m = o at *
  generalize decryptWithRecord E pos r' m = o' at *
  obtain ⟨res, q, p⟩ := o
  obtain ⟨res', q', p'⟩ := o'
  dsimp only at e1 e2 e3 e4
  subst e1; subst e2
  cases res' with
  | err e => exact ⟨rfl, rfl, .nil⟩
  | panic => exact ⟨rfl, rfl, .nil⟩
  | ok x =>
    have hst := e4 x rfl
    refine ⟨rfl, rfl, ?_⟩
    simp only [hst]
    exact .cons (.identity _ _) (.cons (.session _ e3 hst) .nil)

theorem hasSessionState_rel {r r' : Rec} (h : RecRel r r') (v : Int) (b : Bytes) : r'.hasSessionState v b = r.hasSessionState v b := by
  simp only [Rec.hasSessionState, h.state.version, h.state.base]
  congr 1
  simp only [Rec.prevStates, h.prev, List.any_map]
  congr 1
  funext a
  simp only [Function.comp, (h.heap a).version, (h.heap a).base]

theorem processV3_rel (E : Env) (pk spk pk' spk' : UInt32 → Option IdKeyPair) (hpk : ∀ id, (pk' id).map (·.priv) = (pk id).map (·.priv))
    (hspk : ∀ id, (spk' id).map (·.priv) = (spk id).map (·.priv)) (m : PreKeyMsg) {r r' : Rec} (h : RecRel r r') (hs : r'.state = r.state)
    (hf : r.fresh = true → r.state.receiverChains = []) :
    (processV3 E pk' spk' r' m).1 = (processV3 E pk spk r m).1 ∧
    (∀ x, (processV3 E pk spk r m).1 = .ok x → RecRel (processV3 E pk spk r m).2 (processV3 E pk' spk' r' m).2) := by
  simp only [processV3, hasSessionState_rel h]
  split
  · exact ⟨rfl, fun _ _ => h⟩
  · have hs1 := hspk m.struct.signedPreKeyId
    cases h1 : spk m.struct.signedPreKeyId with
    | none =>
      rw [h1] at hs1
      have : spk' m.struct.signedPreKeyId = none := by simpa using hs1
      rw [this]
      exact ⟨rfl, fun x hx => by cases hx⟩
    | some k =>
      rw [h1] at hs1
      obtain ⟨k', h1', hk⟩ : ∃ k', spk' m.struct.signedPreKeyId = some k' ∧ k'.priv = k.priv := by simpa using hs1
      rw [h1']
      dsimp only
      have hr1 : RecRel (if r.fresh = true then r else r.archiveCurrentState) (if r'.fresh = true then r' else r'.archiveCurrentState) := by
        rw [h.fresh]
        split
        · exact h
        · exact h.archive
      have hstate : (if r'.fresh = true then r' else r'.archiveCurrentState).state = (if r.fresh = true then r else r.archiveCurrentState).state ∧
          (if r.fresh = true then r else r.archiveCurrentState).state.receiverChains = [] := by
        rw [h.fresh]
        split
        · rename_i hfr; exact ⟨hs, hf hfr⟩
        · simp [Rec.archiveCurrentState, Rec.promote, Rec.state, h.next, SState.new]
      generalize (if r.fresh = true then r else r.archiveCurrentState) = q at *
      generalize (if r'.fresh = true then r' else r'.archiveCurrentState) = q' at *
      rw [hk]
      cases hm : m.struct.preKeyId with
      | none =>
        dsimp only
        generalize calculateReceiverSession E.C _ = ks
        cases ks with
        | err e => exact ⟨rfl, fun x hx => by cases hx⟩
        | panic => exact ⟨rfl, fun x hx => by cases hx⟩
        | ok keys =>
          refine ⟨rfl, fun _ _ => ?_⟩
          dsimp only
          rw [hstate.1, hr1.cur]
          exact hr1.set _ (.inr ⟨hstate.2, _, k'.pub, rfl, by simp [SState.setSenderChain]⟩) (by simp [InInt64, SState.setSenderChain, currentVersion])
      | some id =>
        have hp := hpk id.value
        dsimp only
        cases h2 : pk id.value with
        | none =>
          rw [h2] at hp
          have hp : pk' id.value = none := by simpa using hp
          rw [hp]
          exact ⟨rfl, fun x hx => by cases hx⟩
        | some kp =>
          rw [h2] at hp
          obtain ⟨kp', h3, h4⟩ : ∃ k', pk' id.value = some k' ∧ k'.priv = kp.priv := by simpa using hp
          rw [h3]
          dsimp only
          rw [h4]
          generalize calculateReceiverSession E.C _ = ks
          cases ks with
          | err e => exact ⟨rfl, fun x hx => by cases hx⟩
          | panic => exact ⟨rfl, fun x hx => by cases hx⟩
          | ok keys =>
            refine ⟨rfl, fun _ _ => ?_⟩
            dsimp only
            rw [hstate.1, hr1.cur]
            exact hr1.set _ (.inr ⟨hstate.2, _, k'.pub, rfl, by simp [SState.setSenderChain]⟩) (by simp [InInt64, SState.setSenderChain, currentVersion])

theorem decryptPreKeyRec_rel (E : Env) (ids : Addr → Option Key32) (pk spk pk' spk' : UInt32 → Option IdKeyPair)
    (hpk : ∀ id, (pk' id).map (·.priv) = (pk id).map (·.priv)) (hspk : ∀ id, (spk' id).map (·.priv) = (spk id).map (·.priv))
    (pos : Nat) (a : Addr) (m : PreKeyMsg) {r r' : Rec} (h : RecRel r r') (hs : r'.state = r.state)
    (hf : r.fresh = true → r.state.receiverChains = []) :
    (decryptPreKeyRec E ids pk' spk' pos a r' m).1 = (decryptPreKeyRec E ids pk spk pos a r m).1 ∧
    (decryptPreKeyRec E ids pk' spk' pos a r' m).2.2.1 = (decryptPreKeyRec E ids pk spk pos a r m).2.2.1 ∧
    List.Forall₂ EffRel (decryptPreKeyRec E ids pk spk pos a r m).2.2.2 (decryptPreKeyRec E ids pk' spk' pos a r' m).2.2.2 := by
  obtain ⟨e1, e2⟩ := processV3_rel E pk spk pk' spk' hpk hspk m h hs hf
  simp only [decryptPreKeyRec, process]
  by_cases ht : E.trusted ids a m.identityKey = false
  · rw [if_pos ht, if_pos ht]; exact ⟨rfl, rfl, .nil⟩
  · rw [if_neg ht, if_neg ht]
    generalize processV3 E pk spk r m = o at *
    generalize processV3 E pk' spk' r' m = o' at *
    obtain ⟨res, q⟩ := o
    obtain ⟨res', q'⟩ := o'
    dsimp only at e1 e2
    subst e1
    cases res' with
    | err e => exact ⟨rfl, rfl, .nil⟩
    | panic => exact ⟨rfl, rfl, .nil⟩
    | ok id =>
      dsimp only
      obtain ⟨f1, f2, f3, f4⟩ := decryptWithRecord_rel E m.message q q' pos (e2 id rfl)
      generalize decryptWithRecord E pos q m.message = o at *
      generalize decryptWithRecord E pos q' m.message = o' at *
      obtain ⟨res, w, p⟩ := o
      obtain ⟨res', w', p'⟩ := o'
      dsimp only at f1 f2 f3 f4
      subst f1; subst f2
      cases res' with
      | err e => exact ⟨rfl, rfl, .cons (.identity _ _) .nil⟩
      | panic => exact ⟨rfl, rfl, .cons (.identity _ _) .nil⟩
      | ok x =>
        have hst := f4 x rfl
        dsimp only
        cases id with
        | none => exact ⟨rfl, rfl, .cons (.identity _ _) (.cons (.session _ f3 hst) .nil)⟩
        | some o =>
          dsimp only
          split
          · exact ⟨rfl, rfl, .cons (.identity _ _) (.cons (.session _ f3 hst) .nil)⟩
          · exact ⟨rfl, rfl, .cons (.identity _ _) (.cons (.session _ f3 hst) (.cons (.remove _) .nil))⟩

theorem buildFromBundle_rel (E : Env) (pos : Nat) (a : Addr) (b : Bundle) (k : Key32) {r r' : Rec} (h : RecRel r r') (hs : r'.state = r.state) :
    (buildFromBundle E pos a r' b k).1 = (buildFromBundle E pos a r b k).1 ∧
    (buildFromBundle E pos a r' b k).2.2.1 = (buildFromBundle E pos a r b k).2.2.1 ∧
    List.Forall₂ EffRel (buildFromBundle E pos a r b k).2.2.2 (buildFromBundle E pos a r' b k).2.2.2 := by
  unfold buildFromBundle
  cases generateKeyPair E.C (E.rng pos) with
  | err e => exact ⟨rfl, rfl, .nil⟩
  | panic => exact ⟨rfl, rfl, .nil⟩
  | ok base =>
    dsimp only
    have hr1 : RecRel (if r.fresh = true then r else r.archiveCurrentState) (if r'.fresh = true then r' else r'.archiveCurrentState) := by
      rw [h.fresh]
      split
      · exact h
      · exact h.archive
    have hstate : (if r'.fresh = true then r' else r'.archiveCurrentState).state = (if r.fresh = true then r else r.archiveCurrentState).state := by
      rw [h.fresh]
      split
      · exact hs
      · simp [Rec.archiveCurrentState, Rec.promote, Rec.state, h.next]
    generalize (if r.fresh = true then r else r.archiveCurrentState) = q at *
    generalize (if r'.fresh = true then r' else r'.archiveCurrentState) = q' at *
    cases base.priv with
    | none => exact ⟨rfl, rfl, .nil⟩
    | some bp =>
      dsimp only
      generalize calculateSenderSession E.C _ = ks
      cases ks with
      | err e => exact ⟨rfl, rfl, .nil⟩
      | panic => exact ⟨rfl, rfl, .nil⟩
      | ok derived =>
        dsimp only
        cases generateKeyPair E.C (E.rng (pos + 1)) with
        | err e => exact ⟨rfl, rfl, .nil⟩
        | panic => exact ⟨rfl, rfl, .nil⟩
        | ok ratchet =>
          dsimp only
          cases createChain E.C derived.root k ratchet with
          | err e => exact ⟨rfl, rfl, .nil⟩
          | panic => exact ⟨rfl, rfl, .nil⟩
          | ok sending =>
            refine ⟨rfl, rfl, .cons (.session _ ?_ ?_) (.cons (.identity _ _) .nil)⟩
            · rw [hstate, hr1.cur]
              exact hr1.set _ (.inl rfl) (by simp [InInt64, initSenderState, SState.setSenderChain, SState.addReceiverChain, currentVersion])
            · rw [hstate]
              show (q'.set q'.cur _).heap q'.cur = (q.set q.cur _).heap q.cur
              rw [Rec.set_heap_same, Rec.set_heap_same]

end Verif
