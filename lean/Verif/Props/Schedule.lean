import Verif.Spec.Schedule
import Verif.Props.Window
import Verif.Proofs.Groups
/-
C54: the key schedule is the one of the specification (Spec/Schedule.lean), byte for byte; and C49 restated over that
schedule.
-/
set_option linter.unusedSimpArgs false
namespace Verif
open Schedule

/-- The keyed hash of a set of primitives. -/
abbrev Crypto.H (C : Crypto) : Bytes → Bytes → Bytes := fun k m => (C.hmac k m).bytes

theorem blocks_snoc (H : Bytes → Bytes → Bytes) (prk info : Bytes) (n : Nat) :
    ∀ i, blocks H prk info (i + n) = blocks H prk info i ++ ((List.range n).map fun j => T H prk info (i + j + 1)).flatten := by
  induction n with
  | zero => intro i; simp
  | succ n ih =>
    intro i
    rw [← Nat.add_assoc, blocks, ih i, List.range_succ, List.map_append, List.flatten_append]
    simp

theorem hkdfBlocks_spec (C : Crypto) (prk info : Bytes) (n : Nat) : ∀ i,
    hkdfBlocks C prk info n (T C.H prk info i) (i + 1) = ((List.range n).map fun j => T C.H prk info (i + j + 1)).flatten := by
  induction n with
  | zero => intro i; rfl
  | succ n ih =>
    intro i
    rw [List.range_succ_eq_map, List.map_cons, List.map_map, List.flatten_cons]
    simp only [hkdfBlocks]
    have : (C.hmac prk (T C.H prk info i ++ info ++ [UInt8.ofNat (i + 1)])).bytes = T C.H prk info (i + 1) := rfl
    rw [this, ih (i + 1)]
    congr 2
    apply List.map_congr_left
    intro j _
    simp only [Function.comp_apply]
    congr 1
    omega

/-- **C54 (HKDF).** `DeriveSecrets` is RFC 5869's HKDF for every input, salt, info and every length up to 255 blocks, and
an error beyond. -/
theorem C54_hkdf (C : Crypto) (ikm : Bytes) (salt : Option Bytes) (info : Bytes) (n : Nat) :
    deriveSecrets C ikm salt info n =
      if n ≤ 255 * 32 then .ok (hkdf C.H (salt.getD noSalt) ikm info n) else .err .kdfTooLong := by
  unfold deriveSecrets
  by_cases h : n ≤ 255 * 32
  · rw [if_neg (by omega), if_pos h]
    have h1 := hkdfBlocks_spec C (C.hmac (salt.getD noSalt) ikm).bytes info ((n + 31) / 32) 0
    have h2 := blocks_snoc C.H (C.hmac (salt.getD noSalt) ikm).bytes info ((n + 31) / 32) 0
    rw [Nat.zero_add] at h1 h2
    rw [← h1] at h2
    simp only [blocks, List.nil_append, T] at h2
    simp only [hkdf, Crypto.H]
    rw [h2]
    rfl
  · rw [if_pos (by omega), if_neg h]

/-- **C54 (symmetric ratchet).** Starting from any chain key, the chain key after `n` steps, its index, and the message
keys at that position are those of the specification: 32 bytes cipher key, 32 bytes MAC key, 16 bytes IV. -/
theorem C54_chain (C : Crypto) (ck : ChainKey) (n : Nat) :
    (ck.iter C n).key = chainKey C.H ck.key n ∧ (ck.iter C n).index = ck.index + UInt32.ofNat n ∧
    ((ck.iter C n).msgKeys C).cipherKey ++ ((ck.iter C n).msgKeys C).macKey ++ ((ck.iter C n).msgKeys C).iv
      = messageMaterial C.H ck.key n ∧
    ((ck.iter C n).msgKeys C).cipherKey.length = 32 ∧ ((ck.iter C n).msgKeys C).macKey.length = 32 ∧
    ((ck.iter C n).msgKeys C).iv.length = 16 := by
  have hk : ∀ n, (ck.iter C n).key = chainKey C.H ck.key n := by
    intro n
    induction n with
    | zero => rfl
    | succ n ih =>
      show (C.hmac (ck.iter C n).key [2]).bytes = (C.hmac (chainKey C.H ck.key n) [2]).bytes
      rw [ih]
  obtain ⟨l1, l2, l3, -⟩ := msgKeys_ok C (ck.iter C n)
  refine ⟨hk n, ChainKey.iter_index C n ck, ?_, l1, l2, l3⟩
  obtain ⟨b, hb, hl⟩ := deriveSecrets_ok C ((ck.iter C n).baseMaterial C [0x01]) none (ascii "WhisperMessageKeys") (n := 80) (by omega)
  have hb' := hb
  rw [C54_hkdf, if_pos (by omega)] at hb'
  have he : b = messageMaterial C.H ck.key n := by
    simp only [Res.ok.injEq] at hb'
    rw [← hb', messageMaterial, ChainKey.baseMaterial, hk n]
    rfl
  rw [← he]
  unfold ChainKey.msgKeys
  rw [hb]
  simp only
  rw [show List.take 16 (List.drop 64 b) = List.drop 32 (List.drop 32 b) by
    rw [List.drop_drop, List.take_of_length_le (by simp; omega)]]
  rw [List.append_assoc, List.take_append_drop, List.take_append_drop]

/-- **C54 (root step).** -/
theorem C54_root (C : Crypto) (root : Bytes) (their priv : Key32) (pub : Key32) :
    createChain C root their ⟨pub, some priv⟩ =
      .ok ⟨(rootStep C.H root (C.dh their priv).bytes).1, ⟨(rootStep C.H root (C.dh their priv).bytes).2, 0⟩⟩ := by
  simp only [createChain]
  rw [C54_hkdf, if_pos (by omega)]
  rfl

/-- **C54 (initiator).** DH1 is the initiator's identity key with the responder's signed prekey, DH2 its base key with the
responder's identity key, DH3 base key with signed prekey, DH4 base key with one-time prekey. -/
theorem C54_initiator (C : Crypto) (p : SenderParams) :
    calculateSenderSession C p =
      let k := x3dh C.H (C.dh p.theirSignedPreKey p.ourIdentity.priv).bytes (C.dh p.theirIdentity p.ourBasePriv).bytes
        (C.dh p.theirSignedPreKey p.ourBasePriv).bytes (p.theirOneTime.map fun o => (C.dh o p.ourBasePriv).bytes)
      .ok ⟨k.1, ⟨k.2, 0⟩⟩ := by
  unfold calculateSenderSession
  cases p.theirOneTime with
  | none =>
    simp only [Option.map_none]
    rw [C54_hkdf, if_pos (by omega)]
    simp only [x3dh, Option.getD_none, List.append_nil]
    rfl
  | some o =>
    simp only [Option.map_some]
    rw [C54_hkdf, if_pos (by omega)]
    simp only [x3dh, Option.getD_some]
    rfl

/-- **C54 (responder).** The same four values from the other side. -/
theorem C54_responder (C : Crypto) (p : ReceiverParams) :
    calculateReceiverSession C p =
      let k := x3dh C.H (C.dh p.theirIdentity p.ourSignedPreKeyPriv).bytes (C.dh p.theirBase p.ourIdentity.priv).bytes
        (C.dh p.theirBase p.ourSignedPreKeyPriv).bytes (p.ourOneTimePriv.map fun o => (C.dh p.theirBase o).bytes)
      .ok ⟨k.1, ⟨k.2, 0⟩⟩ := by
  unfold calculateReceiverSession
  cases p.ourOneTimePriv with
  | none =>
    simp only [Option.map_none]
    rw [C54_hkdf, if_pos (by omega)]
    simp only [x3dh, Option.getD_none, List.append_nil]
    rfl
  | some o =>
    simp only [Option.map_some]
    rw [C54_hkdf, if_pos (by omega)]
    simp only [x3dh, Option.getD_some]
    rfl

/-- **C54 (groups).** The sender-key chain is the same chain with the group's info string; the 48 bytes are the IV and the
cipher key. -/
theorem C54_group (C : Crypto) (ck : SChainKey) (n : Nat) :
    (ck.iter C n).key = chainKey C.H ck.key n ∧ (ck.iter C n).iteration = ck.iteration + UInt32.ofNat n ∧
    ∃ mk, (ck.iter C n).msgKey C = .ok mk ∧ mk.iteration = ck.iteration + UInt32.ofNat n ∧
      mk.iv ++ mk.cipherKey = groupMaterial C.H ck.key n ∧ mk.iv.length = 16 ∧ mk.cipherKey.length = 32 := by
  have hk : ∀ n, (ck.iter C n).key = chainKey C.H ck.key n := by
    intro n
    induction n with
    | zero => rfl
    | succ n ih =>
      show (C.hmac (ck.iter C n).key [2]).bytes = (C.hmac (chainKey C.H ck.key n) [2]).bytes
      rw [ih]
  refine ⟨hk n, SChainKey.iter_iteration C n ck, ?_⟩
  obtain ⟨d, hd, hl⟩ := deriveSecrets_ok C ((ck.iter C n).derivative C [0x01]) none (ascii "WhisperGroup") (n := 48) (by omega)
  have hd' := hd
  rw [C54_hkdf, if_pos (by omega)] at hd'
  have he : d = groupMaterial C.H ck.key n := by
    simp only [Res.ok.injEq] at hd'
    rw [← hd', groupMaterial, SChainKey.derivative, hk n]
    rfl
  unfold SChainKey.msgKey newSMKey
  simp only [hd, Res.bind_ok, split]
  rw [if_neg (by omega)]
  refine ⟨_, rfl, SChainKey.iter_iteration C n ck, ?_, ?_, ?_⟩
  · have : copyInto 32 (List.drop 16 d) = List.drop 16 d := by
      unfold copyInto
      rw [List.take_of_length_le (by simp; omega)]
      simp [hl]
    simp only [this, List.take_append_drop]; exact he
  · simp [hl]
  · simp [copyInto_length, hl]

/-- **C54 (sending).** A message sent on a chain whose first chain key was `k0` and of which `n` messages were sent before
is encrypted with the `n`-th keys of the schedule, and the chain key left behind is the next one of the schedule. -/
theorem C54_send (E : Env) (s s' : SState) (pt : Bytes) (cm : CipherMsg) (sc : Chain) (k0 : Bytes) (n : Nat)
    (hsc : s.senderChain = some sc) (hk : sc.chainKey.key = chainKey E.C.H k0 n)
    (h : encryptState E s pt = (.ok cm, s')) :
    ∃ body key mac iv, messageMaterial E.C.H k0 n = key ++ mac ++ iv ∧ key.length = 32 ∧ mac.length = 32 ∧ iv.length = 16 ∧
      encryptCbc E.C none (some iv) key pt = .ok body ∧
      (∃ sm, newSignalMessage E.C E.S s.version sc.chainKey.index s.previousCounter mac sc.pair.pub body s.localIdentity
          s.remoteIdentity = .ok sm ∧ (cm = .signal sm ∨ ∃ pp pm, s.pendingPreKey = some pp ∧ cm = .preKey pm ∧
          newPreKeyMessage E.S s.version s.localRegistrationId pp.preKeyId pp.signedPreKeyId pp.baseKey s.localIdentity sm
            = .ok pm)) ∧
      ∃ sc', s'.senderChain = some sc' ∧ sc'.chainKey.key = chainKey E.C.H k0 (n + 1) ∧
        sc'.chainKey.index = sc.chainKey.index + 1 := by
  obtain ⟨sc1, body, sm, h1, h2, h3, h4, h5⟩ := encryptState_ok h
  rw [hsc] at h1
  cases h1
  have hm := C54_chain E.C sc.chainKey 0
  have e0 : messageMaterial E.C.H sc.chainKey.key 0 = messageMaterial E.C.H k0 n := by
    simp only [messageMaterial, hk, chainKey]
  refine ⟨body, (sc.chainKey.msgKeys E.C).cipherKey, (sc.chainKey.msgKeys E.C).macKey, (sc.chainKey.msgKeys E.C).iv,
    ?_, hm.2.2.2.1, hm.2.2.2.2.1, hm.2.2.2.2.2, h2, ⟨sm, h3, ?_⟩, ?_⟩
  · rw [← e0, ← hm.2.2.1]; rfl
  · rcases h5 with ⟨-, h5⟩ | ⟨pp, pm, h5a, h5, h6⟩
    · exact .inl h5
    · exact .inr ⟨pp, pm, h5a, h6, h5⟩
  · refine ⟨_, by rw [h4], ?_, rfl⟩
    show (E.C.hmac sc.chainKey.key [2]).bytes = (E.C.hmac (chainKey E.C.H k0 n) [2]).bytes
    rw [hk]

/-- **C49 over the schedule.** After a successful decryption there is one first chain key `k0` such that the message was
opened with the keys of position `counter` of `k0`'s schedule, the remembered keys are those of other positions, and
whatever the stored chain key yields by advancing it any number of steps belongs to later positions. -/
theorem C49_only_other_positions (E : Env) (s s1 : SState) (d : Option Key32) (m : SignalMsg) (pt : Bytes) (mk : MsgKeys)
    (b : Bool) (hwf : WFChains E.C s) (h : decryptWithState E d s m = (.ok (pt, mk), s1, b)) :
    ∃ (c : Chain) (k0 : Bytes) (next : Nat) (skipped : List Nat),
      s1.receiverChain m.senderRatchetKey = some c ∧
      mk.cipherKey ++ mk.macKey ++ mk.iv = messageMaterial E.C.H k0 m.struct.counter.toNat ∧
      m.struct.counter.toNat < next ∧ m.struct.counter.toNat ∉ skipped ∧
      c.msgKeys.map (fun k => k.cipherKey ++ k.macKey ++ k.iv) = skipped.map (messageMaterial E.C.H k0) ∧
      ∀ j, chainKey E.C.H c.chainKey.key j = chainKey E.C.H k0 (next + j) ∧
        messageMaterial E.C.H c.chainKey.key j = messageMaterial E.C.H k0 (next + j) := by
  obtain ⟨-, ⟨c, ck0, w, h1, h0, h2, h3, h4, h5, h6, h7⟩, -⟩ := C49_consumed_keys_gone E s s1 d m pt mk b hwf h
  have hck : ∀ j, chainKey E.C.H c.chainKey.key j = chainKey E.C.H ck0.key (w.next + j) := by
    intro j
    rw [h2, ← (C54_chain E.C (ck0.iter E.C w.next) j).1, ← ChainKey.iter_add, (C54_chain E.C ck0 (w.next + j)).1]
  refine ⟨c, ck0.key, w.next, w.skipped, h1, ?_, h5, h6, ?_, fun j => ⟨hck j, ?_⟩⟩
  · rw [h4]; exact (C54_chain E.C ck0 _).2.2.1
  · rw [h3, List.map_map]
    apply List.map_congr_left
    intro p _
    exact (C54_chain E.C ck0 p).2.2.1
  · simp only [messageMaterial, hck j]

section
open Toy
set_option maxRecDepth 100000
/-- The hypotheses of `C54_send` and `C49_only_other_positions` are met by the sample conversation. -/
example := C49_only_other_positions bobEnv bobInit _ (bobEnv.rng 0) msg2.message
    (opened (decryptWithState bobEnv (bobEnv.rng 0) bobInit msg2.message).1).1
    (opened (decryptWithState bobEnv (bobEnv.rng 0) bobInit msg2.message).1).2 true (WFChains.of_nil (by decide +kernel))
    (show decryptWithState bobEnv (bobEnv.rng 0) bobInit msg2.message = (_, (decryptWithState bobEnv (bobEnv.rng 0) bobInit msg2.message).2.1, _) by
      decide +kernel)
example : (encryptState aliceEnv aliceInit [1, 2, 3]).1.isOk = true ∧ aliceInit.senderChain.isSome = true := by decide +kernel
end

end Verif
