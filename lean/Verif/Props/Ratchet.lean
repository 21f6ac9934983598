import Verif.Props.Stores
import Verif.Props.Window
import Verif.Proofs.Encrypt
import Verif.Props.Wire
/-
C18 (promotion of archived states), C19 (failed attempts), C20 (previous counter), C51 (fresh ratchet keys),
C53 (saved message keys), and the live-store half of C09.
-/
set_option linter.unusedSimpArgs false
namespace Verif

/-! ### C53 -/

theorem openWith_ok {E : Env} {ri li : Option Key32} {m : SignalMsg} {mk : MsgKeys} {x : Bytes × MsgKeys}
    (h : openWith E ri li m mk = .ok x) :
    x.2 = mk ∧ decryptBody E.C mk (m.struct.cipherText.getD []) = .ok x.1 ∧
      m.verifyMac E.C E.S m.struct.version ri li mk.macKey = .ok () := by
  unfold openWith at h
  cases hv : m.verifyMac E.C E.S m.struct.version ri li mk.macKey with
  | err e => simp [hv] at h
  | panic => simp [hv] at h
  | ok u =>
    simp only [hv, Res.bind_ok] at h
    cases hd : decryptBody E.C mk (m.struct.cipherText.getD []) with
    | err e => simp [hd] at h
    | panic => simp [hd] at h
    | ok pt => simp [hd] at h; subst h; exact ⟨rfl, rfl, rfl⟩

theorem decryptWithState_ok_open {E : Env} {d : Option Key32} {s s' : SState} {m : SignalMsg} {x : Bytes × MsgKeys} {b : Bool}
    (h : decryptWithState E d s m = (.ok x, s', b)) :
    openWith E s.remoteIdentity s.localIdentity m x.2 = .ok x := by
  rcases decryptWithState_cases E d s m with ⟨res, d', he, hno, -⟩ | ⟨s1, c, d', hc, -, -, -, he⟩
  · rw [he] at h; cases h; simp [Res.isOk] at hno
  · rw [he] at h
    cases hr : c.recv E.C m.struct.counter with
    | mk r c' =>
      rw [hr] at h
      cases r with
      | err e => simp at h
      | panic => simp at h
      | ok mk =>
        simp only [Prod.mk.injEq] at h
        rw [(openWith_ok h.1).1]
        exact h.1

/-- **C53.** A message that was decrypted by `DecryptAndGetKey` can be decrypted again from the message keys it returned,
without the session and with the same result. -/
theorem C53_saved_key_decrypts_again (E : Env) (st : Store) (pos : Nat) (a : Addr) (m : SignalMsg) (pt : Bytes) (k : MsgKeys)
    (h : (st.decrypt E pos a m).1 = .ok (pt, k)) : decryptWithKey E m k = .ok pt := by
  have : ∃ st' pos', st.decrypt E pos a m = (.ok (pt, k), st', pos') := by
    refine ⟨(st.decrypt E pos a m).2.1, (st.decrypt E pos a m).2.2, ?_⟩
    rw [← h]
  obtain ⟨st', pos', h'⟩ := this
  obtain ⟨r, r', s, -, -, hrec, -⟩ := C50_attribution_partial E st st' pos pos' a m (pt, k) h'
  obtain ⟨ad, s, d, s', b, -, -, hds, -⟩ := decryptWithRecord_ok hrec
  exact (openWith_ok (decryptWithState_ok_open hds)).2.1

set_option maxRecDepth 100000 in
/-- Non-vacuity of C53. -/
example : (Toy.bob2.decrypt Toy.bobEnv 1 Toy.alice Toy.msg3).1 =
    .ok ([7], (Toy.opened (Toy.bob2.decrypt Toy.bobEnv 1 Toy.alice Toy.msg3).1).2) := by decide +kernel

/-! ### C20 -/

/-- **C20 (partial).** When decrypting a message makes the ratchet step, and at least one message had been sent on the
sending chain that ends, the previous counter is the counter of the last message sent on it; every later message
built from the state carries it.  Missing: chains on which nothing was sent, for which the claim is false. -/
theorem C20_previous_counter_partial (E : Env) (d : Option Key32) (s s1 : SState) (m : SignalMsg) (sc : Chain)
    (res : Res (Bytes × MsgKeys)) (h : decryptWithState E d s m = (res, s1, true)) (hsc : s.senderChain = some sc)
    (hd : d ≠ none) (hpos : sc.chainKey.index ≠ 0) :
    s1.previousCounter.toNat + 1 = sc.chainKey.index.toNat := by
  rcases decryptWithState_cases E d s m with ⟨res', d', he, -, h1 | h1 | h1⟩ | ⟨s0, c, d', hc, -, -, hs0, he⟩
  · simp [hsc] at h1
  · rw [he, h1.2.2] at h; simp at h
  · rcases h1.2 with ⟨-, rfl⟩ | ⟨-, hn, -⟩
    · rw [he] at h; simp at h
    · exact absurd hn hd
  · have hd' : d' = true := by
      rw [he] at h
      split at h <;> simp at h <;> simp [h]
    rcases hs0 with ⟨-, rfl⟩ | ⟨hn, -, root, sc', p, r, hr, hsc', hp, hdr, rfl⟩
    · simp at hd'
    · rw [hsc] at hsc'; cases hsc'
      have hpc : s1.previousCounter = sc.chainKey.index - 1 := by
        have hx : (ratchetStep E.C s m.senderRatchetKey root sc.chainKey.index p (clamp r)).previousCounter = sc.chainKey.index - 1 := by
          simp only [ratchetStep, SState.setSenderChain, maxU32]
          split
          · rfl
          · rename_i hh
            have hh := UInt32.not_lt.1 hh
            rw [UInt32.le_iff_toNat_le] at hh
            apply UInt32.toNat_inj.1
            simp at hh ⊢
            omega
        rw [he] at h
        cases hrv : c.recv E.C m.struct.counter with
        | mk r0 c' =>
          rw [hrv] at h
          cases r0 with
          | err e => simp only [Prod.mk.injEq] at h; rw [← h.2.1]; exact hx
          | panic => simp only [Prod.mk.injEq] at h; rw [← h.2.1]; exact hx
          | ok mk =>
            simp only [Prod.mk.injEq] at h
            rw [← h.2.1]
            generalize Res.isOk _ = b
            cases b <;> exact hx
      rw [hpc]
      have hne : sc.chainKey.index.toNat ≠ 0 := fun e => hpos (UInt32.toNat_inj.1 (by simpa using e))
      rw [UInt32.toNat_sub_of_le _ _ (by rw [UInt32.le_iff_toNat_le]; simp; omega)]
      simp; omega

/-- The signal message carried by a result of Encrypt. -/
def CipherMsg.inner : CipherMsg → SignalMsg
  | .signal m => m
  | .preKey m => m.message

/-- Every message Encrypt returns carries the state's previous counter, its sending ratchet key and its chain index, and is
encrypted with the keys of that index. (Version 3 and one of the bundled serializers; needed only for prekey messages, whose inner
message goes through the serializer.) -/
theorem encryptState_inner {E : Env} (hS : StdSM E.S) {s s' : SState} {pt : Bytes} {cm : CipherMsg}
    (hv : s.version = currentVersion) (hpt : pt.length < 2 ^ 63) (h : encryptState E s pt = (.ok cm, s')) :
    ∃ sc body, s.senderChain = some sc ∧ encryptBody E.C (sc.chainKey.msgKeys E.C) pt = .ok body ∧
      newSignalMessage E.C E.S s.version sc.chainKey.index s.previousCounter (sc.chainKey.msgKeys E.C).macKey
        sc.pair.pub body s.localIdentity s.remoteIdentity = .ok cm.inner ∧
      s' = { s with senderChain := some { sc with chainKey := sc.chainKey.next E.C } } ∧
      cm.inner.struct.counter = sc.chainKey.index ∧ cm.inner.struct.previousCounter = s.previousCounter ∧
      cm.inner.senderRatchetKey = sc.pair.pub ∧ cm.inner.struct.cipherText = some body ∧ cm.inner.struct.version = s.version ∧
      ((s.pendingPreKey = none ∧ cm = .signal cm.inner) ∨
       ∃ pp pm, s.pendingPreKey = some pp ∧ cm = .preKey pm ∧ pm.baseKey = pp.baseKey ∧ some pm.identityKey = s.localIdentity ∧
         pm.struct.preKeyId = pp.preKeyId ∧ pm.struct.signedPreKeyId = pp.signedPreKeyId ∧ pm.struct.version = s.version ∧
         pm.struct.registrationId = s.localRegistrationId) := by
  obtain ⟨sc, body, sm, hsc, hb, hm, hs', hcase⟩ := encryptState_ok h
  obtain ⟨body', hb', hlen⟩ := encryptBody_ok E.C sc.chainKey pt
  rw [hb] at hb'; cases hb'
  have hf : sm.struct.counter = sc.chainKey.index ∧ sm.struct.previousCounter = s.previousCounter ∧
      sm.senderRatchetKey = sc.pair.pub ∧ sm.struct.cipherText = some body ∧ sm.struct.version = s.version := by
    obtain ⟨_, _, _, _, _, _, rfl⟩ := newSignalMessage_ok hm
    exact ⟨rfl, rfl, rfl, rfl, rfl⟩
  rcases hcase with ⟨hp, rfl⟩ | ⟨pp, pm, hp, hq, rfl⟩
  · exact ⟨sc, body, hsc, hb, hm, hs', hf.1, hf.2.1, hf.2.2.1, hf.2.2.2.1, hf.2.2.2.2, .inl ⟨hp, rfl⟩⟩
  · have hin : pm.message = sm ∧ pm.baseKey = pp.baseKey ∧ some pm.identityKey = s.localIdentity ∧
        pm.struct.preKeyId = pp.preKeyId ∧ pm.struct.signedPreKeyId = pp.signedPreKeyId ∧ pm.struct.version = s.version ∧
        pm.struct.registrationId = s.localRegistrationId := by
      have hm' := hm
      rw [hv] at hm'
      obtain ⟨b, hser, hde⟩ := C24_wire_roundtrip E.C E.S hS _ _ _ _ body _ _ sm (by omega) hm'
      unfold newPreKeyMessage at hq
      cases hl : s.localIdentity with
      | none => simp [hl] at hq
      | some ik =>
        simp only [hl, hser, Res.bind_ok, newPreKeyMessageFromStruct, hv] at hq
        have hcv : checkVersion (currentVersion : Nat) = .ok () := by decide
        simp only [hcv, Res.bind_ok, decodePoint_serPub, hde, Res.map_ok, Res.ok.injEq] at hq
        subst hq
        exact ⟨rfl, rfl, rfl, rfl, rfl, hv.symm, rfl⟩
    refine ⟨sc, body, hsc, hb, ?_, hs', ?_, ?_, ?_, ?_, ?_, .inr ⟨pp, pm, hp, rfl, hin.2⟩⟩ <;>
      simp only [CipherMsg.inner, hin.1]
    · exact hm
    · exact hf.1
    · exact hf.2.1
    · exact hf.2.2.1
    · exact hf.2.2.2.1
    · exact hf.2.2.2.2

/-- Encrypt always succeeds on an initialised version-3 state with either bundled serializer. -/
theorem encryptState_total {E : Env} (hS : StdSM E.S) {s : SState} (hv : s.version = currentVersion)
    (hi : s.Initialised) (pt : Bytes) (hpt : pt.length < 2 ^ 63) : ∃ cm s', encryptState E s pt = (.ok cm, s') := by
  obtain ⟨h1, h2, -, -, h5⟩ := hi
  cases hsc : s.senderChain with
  | none => exact absurd hsc h5
  | some sc =>
  cases hli : s.localIdentity with
  | none => exact absurd hli h1
  | some li =>
  cases hri : s.remoteIdentity with
  | none => exact absurd hri h2
  | some ri =>
  obtain ⟨body, hb, hlen⟩ := encryptBody_ok E.C sc.chainKey pt
  have hm : ∃ sm, newSignalMessage E.C E.S s.version sc.chainKey.index s.previousCounter (sc.chainKey.msgKeys E.C).macKey
        sc.pair.pub body s.localIdentity s.remoteIdentity = .ok sm := by
    have h3 : checkVersion (3 : Int) = .ok () := by decide
    obtain ⟨sb, hsb⟩ := hS.ser_ok ⟨some (serPub sc.pair.pub), sc.chainKey.index, s.previousCounter, some body, 0, none⟩
    simp [newSignalMessage, hsb, hv, hli, hri, getMac, trim, Arr.len, macLength, newSignalMessageFromStruct, currentVersion, h3]
  obtain ⟨sm, hm⟩ := hm
  unfold encryptState
  simp only [hsc, hb, hm]
  cases hp : s.pendingPreKey with
  | none => exact ⟨_, _, rfl⟩
  | some pp =>
    have hm' := hm
    rw [hv] at hm'
    obtain ⟨b, hser, hde⟩ := C24_wire_roundtrip E.C E.S hS _ _ _ _ body _ _ sm (by omega) hm'
    have hcv : checkVersion (currentVersion : Nat) = .ok () := by decide
    simp only [newPreKeyMessage, hli, hser, hv, Res.bind_ok, newPreKeyMessageFromStruct, hcv, decodePoint_serPub, hde, Res.map_ok]
    exact ⟨_, _, rfl⟩

/-- **C20 is false for a chain on which nothing was sent**: the index 0 is decremented as an unsigned number and the
messages after the ratchet step claim that 2^32 messages had been sent. -/
theorem C20_underflow_false (E : Env) (s : SState) (m : SignalMsg) (root : Bytes) (sc : Chain) (p r : Key32)
    (hv : m.struct.version = s.version) (hc : s.receiverChain m.senderRatchetKey = none) (hr : s.rootKey = some root)
    (hsc : s.senderChain = some sc) (hp : sc.pair.priv = some p) (h0 : sc.chainKey.index = 0) :
    (decryptWithState E (some r) s m).2.1.previousCounter = 0xFFFFFFFF := by
  have hx : (ratchetStep E.C s m.senderRatchetKey root sc.chainKey.index p (clamp r)).previousCounter = 0xFFFFFFFF := by
    simp only [ratchetStep, SState.setSenderChain, h0]
    decide
  have h1 := ratchetStep_chain E.C s m.senderRatchetKey root sc.chainKey.index p (clamp r) hc
  rw [decryptWithState_new E s m root sc p r hv hc hr hsc hp none,
    decryptWithState_existing E none (ratchetStep E.C s m.senderRatchetKey root sc.chainKey.index p (clamp r)) m _
      (by simp [ratchetStep, SState.setSenderChain]) hv h1]
  split
  · generalize Res.isOk _ = b
    cases b <;> exact hx
  · exact hx
  · exact hx

set_option maxRecDepth 100000 in
/-- The underflow shows in the very first reply of every responder; and with something sent, the exact value is carried. -/
example : Toy.reply1.struct.previousCounter = 0xFFFFFFFF ∧ Toy.msg3.struct.previousCounter = 1 ∧
    Toy.msg2.message.struct.counter = 1 := by decide +kernel

/-- **C20 (messages, partial).** Messages built after the ratchet step carry the counter of the last message sent on the
previous chain. -/
theorem C20_messages_carry_it_partial (E : Env) (hS : StdSM E.S) (d : Option Key32) (s s1 s2 : SState) (m : SignalMsg) (sc : Chain)
    (res : Res (Bytes × MsgKeys)) (h : decryptWithState E d s m = (res, s1, true)) (hsc : s.senderChain = some sc)
    (hd : d ≠ none) (hpos : sc.chainKey.index ≠ 0) (pt : Bytes) (cm : CipherMsg) (hv : s1.version = currentVersion)
    (hpt : pt.length < 2 ^ 63) (he : encryptState E s1 pt = (.ok cm, s2)) :
    cm.inner.struct.previousCounter.toNat + 1 = sc.chainKey.index.toNat := by
  obtain ⟨_, _, -, -, -, -, -, h6, -⟩ := encryptState_inner hS hv hpt he
  rw [h6]
  exact C20_previous_counter_partial E d s s1 m sc res h hsc hd hpos

/-! ### C51 -/

/-- **C51 (one state).** Decrypting either leaves the sending ratchet key as it is and reads no randomness, or reads one random
value: if the read fails the call fails with the state unchanged, and if it succeeds the new sending ratchet key is
exactly the key pair generated from that value. -/
theorem C51_ratchet_key_fresh (E : Env) (d : Option Key32) (s : SState) (m : SignalMsg) :
    let out := decryptWithState E d s m
    (out.2.2 = false ∧ out.2.1.senderChain = s.senderChain) ∨
    (out.2.2 = true ∧ d = none ∧ out.1 = .err .randFailure ∧ out.2.1 = s) ∨
    (out.2.2 = true ∧ ∃ r ck, d = some r ∧ out.2.1.senderChain = some ⟨⟨E.C.basePub (clamp r), some (clamp r)⟩, ck, []⟩ ∧ ck.index = 0) := by
  intro out
  rcases decryptWithState_cases E d s m with ⟨res, d', he, -, h1 | h1 | h1⟩ | ⟨s1, c, d', hc, -, -, hs1, he⟩
  · exact .inl (by simp only [out, he, h1.2.2]; exact ⟨trivial, trivial⟩)
  · exact .inl (by simp only [out, he, h1.2.2]; exact ⟨trivial, trivial⟩)
  · rcases h1.2 with ⟨-, rfl⟩ | ⟨rfl, rfl, rfl⟩
    · exact .inl (by simp only [out, he]; exact ⟨trivial, trivial⟩)
    · exact .inr (.inl (by simp only [out, he]; exact ⟨trivial, trivial, trivial, trivial⟩))
  · have hsc : out.2.1.senderChain = s1.senderChain ∧ out.2.2 = d' := by
      simp only [out, he]
      split
      · generalize Res.isOk _ = b
        cases b <;> exact ⟨rfl, rfl⟩
      · exact ⟨rfl, rfl⟩
      · exact ⟨rfl, rfl⟩
    rcases hs1 with ⟨rfl, rfl⟩ | ⟨-, rfl, root, sc, p, r, -, -, -, rfl, rfl⟩
    · exact .inl ⟨hsc.2, hsc.1⟩
    · exact .inr (.inr ⟨hsc.2, r, _, rfl, hsc.1, by simp⟩)

/-- The sending ratchet key pair of the state at an address. -/
def Rec.ratchetPair (r : Rec) (b : Nat) : Option KeyPair := (r.heap b).senderChain.map (·.pair)

/-- How sending ratchet keys changed between two records: each object's key is unchanged or was generated from a random
read between `pos` and `pos'`, no read serving two objects. -/
def FreshKeys (E : Env) (pos pos' : Nat) (r r' : Rec) : Prop :=
  pos ≤ pos' ∧ ∃ f : Nat → Option Nat,
    (∀ b, match f b with
      | none => r'.ratchetPair b = r.ratchetPair b
      | some q => pos ≤ q ∧ q < pos' ∧ ∃ k, E.rng q = some k ∧ r'.ratchetPair b = some ⟨E.C.basePub (clamp k), some (clamp k)⟩) ∧
    ∀ b b' q, f b = some q → f b' = some q → b = b'

theorem FreshKeys.refl (E : Env) (pos : Nat) (r : Rec) : FreshKeys E pos pos r r :=
  ⟨Nat.le_refl _, fun _ => none, fun _ => rfl, by simp⟩

theorem FreshKeys.trans {E : Env} {p1 p2 p3 : Nat} {r1 r2 r3 : Rec} (h : FreshKeys E p1 p2 r1 r2) (h' : FreshKeys E p2 p3 r2 r3) :
    FreshKeys E p1 p3 r1 r3 := by
  obtain ⟨hle, f, hf, hi⟩ := h
  obtain ⟨hle', g, hg, hj⟩ := h'
  refine ⟨by omega, fun b => (g b).or (f b), fun b => ?_, fun b b' q hb hb' => ?_⟩
  · have hf := hf b
    have hg := hg b
    cases hgb : g b with
    | some q =>
      rw [hgb] at hg
      simp only [hgb, Option.some_or]
      exact ⟨by omega, hg.2.1, hg.2.2⟩
    | none =>
      rw [hgb] at hg
      simp only at hg
      simp only [hgb, Option.none_or]
      cases hfb : f b with
      | none => rw [hfb] at hf; exact hg.trans hf
      | some q =>
        rw [hfb] at hf
        exact ⟨hf.1, by omega, by rw [hg]; exact hf.2.2⟩
  · simp only at hb hb'
    have bg : ∀ b q, g b = some q → p2 ≤ q := fun b q h => by have := hg b; rw [h] at this; exact this.1
    have bf : ∀ b q, f b = some q → q < p2 := fun b q h => by have := hf b; rw [h] at this; exact this.2.1
    cases hgb : g b with
    | some x =>
      rw [hgb] at hb
      simp only [Option.some_or, Option.some.injEq] at hb
      subst hb
      cases hgb' : g b' with
      | some y => rw [hgb'] at hb'; simp at hb'; exact hj b b' x hgb (by rw [hgb', hb'])
      | none =>
        rw [hgb'] at hb'
        simp only [Option.none_or] at hb'
        have := bg b x hgb; have := bf b' x hb'; omega
    | none =>
      rw [hgb] at hb
      simp only [Option.none_or] at hb
      cases hgb' : g b' with
      | some y =>
        rw [hgb'] at hb'; simp at hb'; subst hb'
        have := bg b' y hgb'; have := bf b y hb; omega
      | none => rw [hgb'] at hb'; simp only [Option.none_or] at hb'; exact hi b b' q hb hb'

theorem freshKeys_step (E : Env) (pos : Nat) (r : Rec) (a : Nat) (m : SignalMsg) :
    FreshKeys E pos (bump pos (decryptWithState E (E.rng pos) (r.heap a) m).2.2) r
      (r.set a (decryptWithState E (E.rng pos) (r.heap a) m).2.1) := by
  rcases C51_ratchet_key_fresh E (E.rng pos) (r.heap a) m with ⟨h1, h2⟩ | ⟨h1, h2, -, h3⟩ | ⟨h1, k, ck, h2, h3, -⟩
  · refine ⟨by rw [h1]; exact Nat.le_refl _, fun _ => none, fun b => ?_, by simp⟩
    simp only [Rec.ratchetPair, Rec.set_heap]
    split
    · rename_i h; subst h; rw [h2]
    · rfl
  · refine ⟨by rw [h1]; simp [bump], fun _ => none, fun b => ?_, by simp⟩
    simp only [Rec.ratchetPair, Rec.set_heap]
    split
    · rename_i h; subst h; rw [h3]
    · rfl
  · refine ⟨by rw [h1]; simp [bump], fun b => if b = a then some pos else none, fun b => ?_, ?_⟩
    · by_cases h : b = a
      · subst h
        simp only [if_true]
        refine ⟨Nat.le_refl _, by rw [h1]; simp [bump], k, h2, ?_⟩
        simp [Rec.ratchetPair, h3]
      · simp only [h, if_false, Rec.ratchetPair, Rec.set_heap]
    · intro b b' q hb hb'
      by_cases h : b = a <;> by_cases h' : b' = a <;> simp_all

theorem freshKeys_afterFail (E : Env) (m : SignalMsg) (l : List Nat) (r : Rec) (pos : Nat) :
    FreshKeys E pos (afterFail E m l r pos).2 r (afterFail E m l r pos).1 := by
  induction l generalizing r pos with
  | nil => exact FreshKeys.refl _ _ _
  | cons a l ih => exact (freshKeys_step E pos r a m).trans (ih _ _)

/-- **C51 (records).** Whatever states a decryption tries, every sending ratchet key afterwards is the old one or one generated
from a random read of this call, no two states sharing a read; the reads of different calls are disjoint
because each call starts at the position where the previous one ended. -/
theorem C51_record_keys_fresh (E : Env) (pos : Nat) (r : Rec) (m : SignalMsg) (x : Bytes × MsgKeys) (r' : Rec) (pos' : Nat)
    (h : decryptWithRecord E pos r m = (.ok x, r', pos')) : FreshKeys E pos pos' r r' := by
  rcases decryptWithRecord_cases E pos r m with ⟨x', s', d, h1, h2⟩ | ⟨pre, a, post, x', s', d, r0, pos0, h0, h1, h2, h3, h4⟩ |
    ⟨-, h2⟩ | ⟨r', pos', h2, -⟩
  · rw [h2] at h; cases h
    have := freshKeys_step E pos r r.cur m
    rw [show r.heap r.cur = r.state from rfl, h1] at this
    exact this
  · rw [h4] at h; cases h
    have ha := freshKeys_afterFail E m (r.cur :: pre) r pos
    rw [← h2] at ha
    have hs := freshKeys_step E pos0 r0 a m
    rw [h3] at hs
    exact ha.trans hs
  · rw [h2] at h; simp at h
  · rw [h2] at h; simp at h

/-- **C51 (failing random source).** If the random source fails, a message that needs a ratchet step is refused and nothing stored
changes. -/
theorem C51_random_failure (E : Env) (st : Store) (pos : Nat) (a : Addr) (m : SignalMsg) (r : Rec) (hl : st.load a = .ok r)
    (hs : st.sessions a ≠ none) (hfail : ∀ n, E.rng n = none) (hv : ∀ s ∈ r.state :: r.prevStates, s.Initialised ∧
      s.receiverChain m.senderRatchetKey = none ∧ ∀ sc, s.senderChain = some sc → sc.pair.priv ≠ none) :
    st.decrypt E pos a m = (.err .noValidSessions, st, (st.decrypt E pos a m).2.2) := by
  have hone : ∀ s : SState, (s.Initialised ∧ s.receiverChain m.senderRatchetKey = none ∧
      ∀ sc, s.senderChain = some sc → sc.pair.priv ≠ none) → ∃ e d, decryptWithState E none s m = (.err e, s, d) := by
    intro s ⟨hi, hn, hpr⟩
    rcases decryptWithState_cases E none s m with ⟨res, d', he, -, h1 | h1 | h1⟩ | ⟨s1, c, d', hc, -, -, hs1, he⟩
    · exact ⟨_, _, by rw [he, h1.2.1]⟩
    · exact ⟨_, _, by rw [he, h1.2.1]⟩
    · rcases h1.2 with ⟨rfl, -⟩ | ⟨rfl, -⟩
      · exfalso
        obtain ⟨-, -, h3, -, h5⟩ := hi
        cases hr : s.rootKey with
        | none => exact h3 hr
        | some root =>
          cases hsc : s.senderChain with
          | none => exact h5 hsc
          | some sc =>
            cases hp : sc.pair.priv with
            | none => exact hpr sc hsc hp
            | some p =>
              have := getOrCreateChainKey_noRand E.C s m.senderRatchetKey root sc p hn hr hsc hp
              unfold decryptWithState at he
              simp only [hsc, this] at he
              split at he <;> simp at he
      · exact ⟨_, _, by rw [he]⟩
    · rcases hs1 with ⟨rfl, -⟩ | ⟨-, -, _, _, _, r, -, -, -, hr, -⟩
      · rw [hn] at hc; simp at hc
      · simp at hr
  have hset : ∀ (r : Rec) (a : Nat), r.set a (r.heap a) = r := by
    intro r a
    have : (fun x => if x = a then r.heap a else r.heap x) = r.heap := by
      funext x; split
      · rename_i h; rw [h]
      · rfl
    simp only [Rec.set, this]
  have htry : ∀ (l : List Nat) (i pos : Nat), (∀ b ∈ l, r.heap b ∈ r.state :: r.prevStates) →
      ∃ p', tryPrevious E m l i r pos = (.err .noValidSessions, r, p') := by
    intro l
    induction l with
    | nil => intro i pos _; exact ⟨pos, rfl⟩
    | cons b l ih =>
      intro i pos hb
      obtain ⟨e, d, he⟩ := hone _ (hv _ (hb b List.mem_cons_self))
      simp only [tryPrevious, hfail, he, hset]
      exact ih _ _ (fun c hc => hb c (List.mem_cons_of_mem _ hc))
  have hrec : ∃ p', decryptWithRecord E pos r m = (.err .noValidSessions, r, p') := by
    obtain ⟨e, d, he⟩ := hone _ (hv r.state List.mem_cons_self)
    unfold decryptWithRecord
    simp only [hfail]
    rw [show r.heap r.cur = r.state from rfl, he]
    simp only
    rw [show r.state = r.heap r.cur from rfl, hset]
    exact htry _ _ _ (fun b hb => List.mem_cons_of_mem _ (List.mem_map_of_mem hb))
  obtain ⟨p', hrec⟩ := hrec
  cases hse : st.sessions a with
  | none => exact absurd hse hs
  | some s0 => simp [Store.decrypt, Store.decryptTrace, hse, hl, decryptRec, hrec, finish, Store.applyAll]

section
open Toy
set_option maxRecDepth 100000
/-- Non-vacuity of C51: Alice's decryption of the reply reads position 2 and installs that key pair. -/
example : decA1.2.2 = 3 ∧ ((aliceEnv.rng 2).map fun k => C.basePub (clamp k)) = (stateOf alice4 bob).senderChain.map (·.pair.pub) := by
  decide +kernel
/-- Non-vacuity of the random-failure part. -/
example : let st := alice3
    (∀ s ∈ (recOf st bob).state :: (recOf st bob).prevStates, s.Initialised ∧ s.receiverChain reply1.senderRatchetKey = none ∧
      s.senderChain.all (·.pair.priv.isSome) = true) := by decide +kernel
end

end Verif
