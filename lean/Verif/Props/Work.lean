import Verif.Model.Work
import Verif.Proofs.Window
import Verif.Proofs.ToyFlow
import Verif.Props.Bounds
/-
C107: the work for one received message is bounded.
-/
namespace Verif
open Verif.Steps

namespace Work

/-- How many steps a computation takes. -/
def cost {α : Type} (x : Timed α) : Nat := x.steps.length

theorem v_bind {α β : Type} (x : Timed α) (f : α → Timed β) : (x >>= f).val = (f x.val).val := rfl
theorem v_pure {α : Type} (a : α) : (pure a : Timed α).val = a := rfl
theorem c_bind {α β : Type} (x : Timed α) (f : α → Timed β) : cost (x >>= f) = cost x + cost (f x.val) := by
  show (x.steps ++ (f x.val).steps).length = _; rw [List.length_append]; rfl
theorem c_pure {α : Type} (a : α) : cost (pure a : Timed α) = 0 := rfl
theorem c_tick (s : Step) : cost (tick s) = 1 := rfl

theorem wHmac_val (C : Crypto) (k m : Bytes) : (wHmac C k m).val = C.hmac k m := rfl
theorem wHmac_cost (C : Crypto) (k m : Bytes) : cost (wHmac C k m) = 1 := rfl
theorem wDh_val (C : Crypto) (a b : Key32) : (wDh C a b).val = C.dh a b := rfl
theorem wDh_cost (C : Crypto) (a b : Key32) : cost (wDh C a b) = 1 := rfl

theorem wBlocks_val (C : Crypto) (prk info : Bytes) (n : Nat) (prev : Bytes) (i : Nat) : (wBlocks C prk info n prev i).val = hkdfBlocks C prk info n prev i := by
  induction n generalizing prev i with
  | zero => rfl
  | succ n ih => rw [wBlocks, v_bind, v_bind, v_pure, ih]; rfl
theorem wBlocks_cost (C : Crypto) (prk info : Bytes) (n : Nat) (prev : Bytes) (i : Nat) : cost (wBlocks C prk info n prev i) = n := by
  induction n generalizing prev i with
  | zero => rfl
  | succ n ih => rw [wBlocks, c_bind, c_bind, c_pure, ih, wHmac_cost]; omega

theorem wDerive_val (C : Crypto) (ikm : Bytes) (salt : Option Bytes) (info : Bytes) (n : Nat) : (wDerive C ikm salt info n).val = deriveSecrets C ikm salt info n := by
  unfold wDerive deriveSecrets
  by_cases h : 255 * 32 < n
  · rw [if_pos h, if_pos h]; rfl
  · rw [if_neg h, if_neg h, v_bind, v_bind, v_pure, wBlocks_val, wHmac_val]
theorem wDerive_cost (C : Crypto) (ikm : Bytes) (salt : Option Bytes) (info : Bytes) (n : Nat) (h : n ≤ 255 * 32) : cost (wDerive C ikm salt info n) = 1 + (n + 31) / 32 := by
  unfold wDerive
  rw [if_neg (by omega), c_bind, c_bind, c_pure, wBlocks_cost, wHmac_cost]; rfl

theorem wNext_val (C : Crypto) (c : ChainKey) : (wNext C c).val = c.next C := rfl
theorem wNext_cost (C : Crypto) (c : ChainKey) : cost (wNext C c) = 1 := rfl
theorem wMsgKeys_val (C : Crypto) (c : ChainKey) : (wMsgKeys C c).val = c.msgKeys C := by
  unfold wMsgKeys ChainKey.msgKeys
  rw [v_bind, v_bind, v_pure, wDerive_val, wHmac_val]; rfl
theorem wMsgKeys_cost (C : Crypto) (c : ChainKey) : cost (wMsgKeys C c) = 5 := by
  unfold wMsgKeys
  rw [c_bind, c_bind, c_pure, wDerive_cost _ _ _ _ _ (by decide), wHmac_cost]

theorem wCreateChain_val (C : Crypto) (root : Bytes) (their : Key32) (our : KeyPair) : (wCreateChain C root their our).val = createChain C root their our := by
  unfold wCreateChain createChain
  cases our.priv with
  | none => rfl
  | some p => simp only; rw [v_bind, v_bind, v_pure, wDerive_val, wDh_val]
theorem wCreateChain_cost (C : Crypto) (root : Bytes) (their : Key32) (our : KeyPair) : cost (wCreateChain C root their our) ≤ 4 := by
  unfold wCreateChain
  cases our.priv with
  | none => exact Nat.zero_le _
  | some p => simp only; rw [c_bind, c_bind, c_pure, wDerive_cost _ _ _ _ _ (by decide), wDh_cost]; decide

theorem wGen_val (C : Crypto) (d : Option Key32) : (wGenerateKeyPair C d).val = generateKeyPair C d := rfl
theorem wGen_cost (C : Crypto) (d : Option Key32) : cost (wGenerateKeyPair C d) = 1 := rfl

theorem wSkipLoop_val (C : Crypto) (eph : Key32) (counter : UInt32) (n : Nat) (s : SState) (ck : ChainKey) :
    (wSkipLoop C eph counter n s ck).val = skipLoop C eph counter n s ck := by
  induction n generalizing s ck with
  | zero => rfl
  | succ n ih =>
    rw [wSkipLoop, skipLoop]
    by_cases h : ck.index < counter
    · rw [if_pos h, if_pos h, v_bind, wMsgKeys_val]
      cases s.setMessageKeys eph (ck.msgKeys C) with
      | err e => rfl
      | panic => rfl
      | ok s' => simp only; rw [v_bind, wNext_val, ih]
    · rw [if_neg h, if_neg h]; rfl
theorem wSkipLoop_cost (C : Crypto) (eph : Key32) (counter : UInt32) (n : Nat) (s : SState) (ck : ChainKey) : cost (wSkipLoop C eph counter n s ck) ≤ 6 * n := by
  induction n generalizing s ck with
  | zero => exact Nat.zero_le _
  | succ n ih =>
    rw [wSkipLoop]
    by_cases h : ck.index < counter
    · rw [if_pos h, c_bind, wMsgKeys_cost, wMsgKeys_val]
      cases s.setMessageKeys eph (ck.msgKeys C) with
      | err e => simp only [c_pure]; omega
      | panic => simp only [c_pure]; omega
      | ok s' =>
        simp only; rw [c_bind, wNext_cost]
        have := ih s' (wNext C ck).val
        omega
    · rw [if_neg h]; exact Nat.zero_le _

theorem wGetMsgKeys_val (C : Crypto) (s : SState) (eph : Key32) (ck : ChainKey) (counter : UInt32) :
    (wGetOrCreateMessageKeys C s eph ck counter).val = getOrCreateMessageKeys C s eph ck counter := by
  unfold wGetOrCreateMessageKeys getOrCreateMessageKeys
  by_cases h : counter < ck.index
  · rw [if_pos h, if_pos h]
    cases s.hasMessageKeys eph counter with
    | err e => rfl
    | panic => rfl
    | ok b => cases b <;> rfl
  · rw [if_neg h, if_neg h]
    by_cases h2 : maxFutureMessages < counter - ck.index
    · rw [if_pos h2, if_pos h2]; rfl
    · rw [if_neg h2, if_neg h2, v_bind, wSkipLoop_val]
      generalize skipLoop C eph counter (counter - ck.index).toNat s ck = x
      obtain ⟨a, s'⟩ := x
      cases a with
      | err e => rfl
      | panic => rfl
      | ok ck' =>
        simp only; rw [v_bind, wNext_val]
        cases s'.setReceiverChainKey eph (ck'.next C) with
        | err e => rfl
        | panic => rfl
        | ok s'' => simp only; rw [v_bind, v_pure, wMsgKeys_val]

theorem wGetMsgKeys_cost (C : Crypto) (s : SState) (eph : Key32) (ck : ChainKey) (counter : UInt32) : cost (wGetOrCreateMessageKeys C s eph ck counter) ≤ 30006 := by
  unfold wGetOrCreateMessageKeys
  by_cases h : counter < ck.index
  · rw [if_pos h]
    cases s.hasMessageKeys eph counter with
    | err e => exact Nat.zero_le _
    | panic => exact Nat.zero_le _
    | ok b => cases b <;> exact Nat.zero_le _
  · rw [if_neg h]
    by_cases h2 : maxFutureMessages < counter - ck.index
    · rw [if_pos h2]; exact Nat.zero_le _
    · rw [if_neg h2, c_bind]
      have hn : (counter - ck.index).toNat ≤ 5000 := by
        have := UInt32.not_lt.1 h2
        have := UInt32.le_iff_toNat_le.1 this
        exact this
      have hs := wSkipLoop_cost C eph counter (counter - ck.index).toNat s ck
      have : cost (match (wSkipLoop C eph counter (counter - ck.index).toNat s ck).val with
          | (.ok ck', s') => (do
            let nk ← wNext C ck'
            match s'.setReceiverChainKey eph nk with
            | .ok s'' => do
              let mk ← wMsgKeys C ck'
              return (.ok mk, s'')
            | .err e => return (.err e, s')
            | .panic => return (.panic, s') : Timed (Res MsgKeys × SState))
          | (.err e, s') => return (.err e, s')
          | (.panic, s') => return (.panic, s')) ≤ 6 := by
        generalize (wSkipLoop C eph counter (counter - ck.index).toNat s ck).val = x
        obtain ⟨a, s'⟩ := x
        cases a with
        | err e => exact Nat.zero_le _
        | panic => exact Nat.zero_le _
        | ok ck' =>
          simp only; rw [c_bind, wNext_cost, wNext_val]
          cases s'.setReceiverChainKey eph (ck'.next C) with
          | err e => simp only [c_pure]; omega
          | panic => simp only [c_pure]; omega
          | ok s'' => simp only; rw [c_bind, c_pure, wMsgKeys_cost]; omega
      refine Nat.le_trans (Nat.add_le_add hs this) ?_
      omega

theorem wGetChain_val (C : Crypto) (draw : Option Key32) (s : SState) (eph : Key32) : (wGetOrCreateChainKey C draw s eph).val = getOrCreateChainKey C draw s eph := by
  unfold wGetOrCreateChainKey getOrCreateChainKey
  cases s.receiverChain eph with
  | some c => rfl
  | none =>
    simp only
    cases s.rootKey with
    | none => rfl
    | some root =>
      cases s.senderChain with
      | none => rfl
      | some sc =>
        simp only; rw [v_bind, wCreateChain_val]
        cases createChain C root eph sc.pair with
        | err e => rfl
        | panic => rfl
        | ok recv =>
          simp only; rw [v_bind, wGen_val]
          cases generateKeyPair C draw with
          | err e => rfl
          | panic => rfl
          | ok ourNew =>
            simp only; rw [v_bind, wCreateChain_val]
            cases createChain C recv.root eph ourNew <;> rfl
theorem wGetChain_cost (C : Crypto) (draw : Option Key32) (s : SState) (eph : Key32) : cost (wGetOrCreateChainKey C draw s eph) ≤ 9 := by
  unfold wGetOrCreateChainKey
  cases s.receiverChain eph with
  | some c => exact Nat.zero_le _
  | none =>
    simp only
    cases s.rootKey with
    | none => exact Nat.zero_le _
    | some root =>
      cases s.senderChain with
      | none => exact Nat.zero_le _
      | some sc =>
        simp only; rw [c_bind]
        have h1 := wCreateChain_cost C root eph sc.pair
        cases (wCreateChain C root eph sc.pair).val with
        | err e => simp only [c_pure]; omega
        | panic => simp only [c_pure]; omega
        | ok recv =>
          simp only; rw [c_bind, wGen_cost]
          cases (wGenerateKeyPair C draw).val with
          | err e => simp only [c_pure]; omega
          | panic => simp only [c_pure]; omega
          | ok ourNew =>
            simp only; rw [c_bind]
            have h2 := wCreateChain_cost C recv.root eph ourNew
            cases (wCreateChain C recv.root eph ourNew).val <;> simp only [c_pure] <;> omega

theorem wMac_val (C : Crypto) (S : Ser SMStruct) (m : SignalMsg) (v : Int) (a b : Option Key32) (k : Bytes) : (wVerifyMac C S m v a b k).val = m.verifyMac C S v a b k := rfl
theorem wMac_cost (C : Crypto) (S : Ser SMStruct) (m : SignalMsg) (v : Int) (a b : Option Key32) (k : Bytes) : cost (wVerifyMac C S m v a b k) = 1 := rfl
theorem wBody_val (C : Crypto) (k : MsgKeys) (b : Bytes) : (wDecryptBody C k b).val = decryptBody C k b := rfl
theorem wBody_cost (C : Crypto) (k : MsgKeys) (b : Bytes) : cost (wDecryptBody C k b) = 1 := rfl

theorem wState_val (E : Env) (draw : Option Key32) (s : SState) (m : SignalMsg) : (wDecryptWithState E draw s m).val = decryptWithState E draw s m := by
  unfold wDecryptWithState decryptWithState
  cases s.senderChain with
  | none => rfl
  | some sc =>
    simp only
    by_cases h : m.struct.version ≠ s.version
    · rw [if_pos h, if_pos h]; rfl
    · rw [if_neg h, if_neg h, v_bind, wGetChain_val]
      generalize getOrCreateChainKey E.C draw s m.senderRatchetKey = x
      obtain ⟨a, s1, d⟩ := x
      cases a with
      | err e => rfl
      | panic => rfl
      | ok ck =>
        simp only; rw [v_bind, wGetMsgKeys_val]
        generalize getOrCreateMessageKeys E.C s1 m.senderRatchetKey ck m.struct.counter = y
        obtain ⟨b, s2⟩ := y
        cases b with
        | err e => rfl
        | panic => rfl
        | ok mk =>
          simp only; rw [v_bind, wMac_val]
          cases m.verifyMac E.C E.S m.struct.version s2.remoteIdentity s2.localIdentity mk.macKey with
          | err e => rfl
          | panic => rfl
          | ok u =>
            simp only; rw [v_bind, wBody_val]
            cases decryptBody E.C mk (m.struct.cipherText.getD []) <;> rfl
theorem wState_cost (E : Env) (draw : Option Key32) (s : SState) (m : SignalMsg) : cost (wDecryptWithState E draw s m) ≤ 30017 := by
  unfold wDecryptWithState
  cases s.senderChain with
  | none => exact Nat.zero_le _
  | some sc =>
    simp only
    by_cases h : m.struct.version ≠ s.version
    · rw [if_pos h]; exact Nat.zero_le _
    · rw [if_neg h, c_bind]
      have h1 := wGetChain_cost E.C draw s m.senderRatchetKey
      generalize (wGetOrCreateChainKey E.C draw s m.senderRatchetKey).val = x
      obtain ⟨a, s1, d⟩ := x
      cases a with
      | err e => simp only [c_pure]; omega
      | panic => simp only [c_pure]; omega
      | ok ck =>
        simp only; rw [c_bind]
        have h2 := wGetMsgKeys_cost E.C s1 m.senderRatchetKey ck m.struct.counter
        generalize (wGetOrCreateMessageKeys E.C s1 m.senderRatchetKey ck m.struct.counter).val = y
        obtain ⟨b, s2⟩ := y
        cases b with
        | err e => simp only [c_pure]; omega
        | panic => simp only [c_pure]; omega
        | ok mk =>
          simp only; rw [c_bind, wMac_cost]
          cases (wVerifyMac E.C E.S m m.struct.version s2.remoteIdentity s2.localIdentity mk.macKey).val with
          | err e => simp only [c_pure]; omega
          | panic => simp only [c_pure]; omega
          | ok u =>
            simp only; rw [c_bind, wBody_cost]
            cases (wDecryptBody E.C mk (m.struct.cipherText.getD [])).val <;> simp only [c_pure] <;> omega

theorem wPrev_val (E : Env) (m : SignalMsg) (l : List Nat) (i : Nat) (r : Rec) (pos : Nat) : (wTryPrevious E m l i r pos).val = tryPrevious E m l i r pos := by
  induction l generalizing i r pos with
  | nil => rfl
  | cons a l ih =>
    rw [wTryPrevious, tryPrevious, v_bind, wState_val]
    generalize decryptWithState E (E.rng pos) (r.heap a) m = x
    obtain ⟨b, s', d⟩ := x
    cases b with
    | err e => exact ih _ _ _
    | panic => rfl
    | ok x => rfl
theorem wPrev_cost (E : Env) (m : SignalMsg) (l : List Nat) (i : Nat) (r : Rec) (pos : Nat) : cost (wTryPrevious E m l i r pos) ≤ l.length * 30017 := by
  induction l generalizing i r pos with
  | nil => exact Nat.zero_le _
  | cons a l ih =>
    rw [wTryPrevious, c_bind, List.length_cons]
    have h1 := wState_cost E (E.rng pos) (r.heap a) m
    generalize (wDecryptWithState E (E.rng pos) (r.heap a) m).val = x
    obtain ⟨b, s', d⟩ := x
    cases b with
    | err e => have := ih (i + 1) (r.set a s') (bump pos d); simp only; omega
    | panic => simp only [c_pure]; omega
    | ok x => simp only [c_pure]; omega

theorem wRecord_val (E : Env) (pos : Nat) (r : Rec) (m : SignalMsg) : (wDecryptWithRecord E pos r m).val = decryptWithRecord E pos r m := by
  rw [wDecryptWithRecord, decryptWithRecord, v_bind, wState_val]
  generalize decryptWithState E (E.rng pos) (r.heap r.cur) m = x
  obtain ⟨b, s', d⟩ := x
  cases b with
  | err e => exact wPrev_val _ _ _ _ _ _
  | panic => rfl
  | ok x => rfl
theorem wRecord_cost (E : Env) (pos : Nat) (r : Rec) (m : SignalMsg) : cost (wDecryptWithRecord E pos r m) ≤ (1 + r.prev.length) * 30017 := by
  rw [wDecryptWithRecord, c_bind]
  have h1 := wState_cost E (E.rng pos) (r.heap r.cur) m
  generalize (wDecryptWithState E (E.rng pos) (r.heap r.cur) m).val = x
  obtain ⟨b, s', d⟩ := x
  cases b with
  | err e => have := wPrev_cost E m r.prev 0 (r.set r.cur s') (bump pos d); simp only; omega
  | panic => simp only [c_pure]; omega
  | ok x => simp only [c_pure]; omega

theorem wReceiver_cost (C : Crypto) (p : ReceiverParams) : cost (wReceiverSession C p) ≤ 7 := by
  unfold wReceiverSession
  rw [c_bind, c_bind, c_bind, wDh_cost, wDh_cost, wDh_cost]
  cases p.ourOneTimePriv with
  | none => simp only; rw [c_bind, c_pure, wDerive_cost _ _ _ _ _ (by decide)]; decide
  | some k => simp only; rw [c_bind, c_bind, c_pure, wDh_cost, wDerive_cost _ _ _ _ _ (by decide)]; decide
theorem wReceiver_val (C : Crypto) (p : ReceiverParams) : (wReceiverSession C p).val = calculateReceiverSession C p := by
  unfold wReceiverSession calculateReceiverSession
  rw [v_bind, v_bind, v_bind, wDh_val, wDh_val, wDh_val]
  cases p.ourOneTimePriv with
  | none => simp only; rw [v_bind, v_pure, wDerive_val]
  | some k => simp only; rw [v_bind, v_bind, v_pure, wDh_val, wDerive_val]

theorem wProcessV3_val (E : Env) (pk spk : UInt32 → Option IdKeyPair) (r : Rec) (m : PreKeyMsg) : (wProcessV3 E pk spk r m).val = processV3 E pk spk r m := by
  unfold wProcessV3 processV3
  by_cases h : r.hasSessionState m.struct.version (serPub m.baseKey) = true
  · rw [if_pos h, if_pos h]; rfl
  · rw [if_neg h, if_neg h]
    cases spk m.struct.signedPreKeyId with
    | none => rfl
    | some k =>
      simp only
      cases hid : m.struct.preKeyId with
      | none =>
        simp only; rw [v_bind, wReceiver_val]
        cases calculateReceiverSession E.C ⟨E.identity, k.priv, none, m.baseKey, m.identityKey⟩ <;> rfl
      | some id =>
        simp only
        cases pk id.value with
        | none => rfl
        | some kp =>
          simp only; rw [v_bind, wReceiver_val]
          cases calculateReceiverSession E.C ⟨E.identity, k.priv, some kp.priv, m.baseKey, m.identityKey⟩ <;> rfl
theorem wProcessV3_cost (E : Env) (pk spk : UInt32 → Option IdKeyPair) (r : Rec) (m : PreKeyMsg) : cost (wProcessV3 E pk spk r m) ≤ 7 := by
  unfold wProcessV3
  by_cases h : r.hasSessionState m.struct.version (serPub m.baseKey) = true
  · rw [if_pos h]; exact Nat.zero_le _
  · rw [if_neg h]
    cases spk m.struct.signedPreKeyId with
    | none => exact Nat.zero_le _
    | some k =>
      simp only
      cases hid : m.struct.preKeyId with
      | none =>
        simp only; rw [c_bind]
        have h1 := wReceiver_cost E.C ⟨E.identity, k.priv, none, m.baseKey, m.identityKey⟩
        cases (wReceiverSession E.C ⟨E.identity, k.priv, none, m.baseKey, m.identityKey⟩).val <;> simp only [c_pure] <;> omega
      | some id =>
        simp only
        cases pk id.value with
        | none => exact Nat.zero_le _
        | some kp =>
          simp only; rw [c_bind]
          have h1 := wReceiver_cost E.C ⟨E.identity, k.priv, some kp.priv, m.baseKey, m.identityKey⟩
          cases (wReceiverSession E.C ⟨E.identity, k.priv, some kp.priv, m.baseKey, m.identityKey⟩).val <;> simp only [c_pure] <;> omega

theorem wProcess_val (E : Env) (ids : Addr → Option Key32) (pk spk : UInt32 → Option IdKeyPair) (a : Addr) (r : Rec) (m : PreKeyMsg) :
    (wProcess E ids pk spk a r m).val = process E ids pk spk a r m := by
  unfold wProcess process
  by_cases h : E.trusted ids a m.identityKey = false
  · rw [if_pos h, if_pos h]; rfl
  · rw [if_neg h, if_neg h, v_bind, v_pure, wProcessV3_val]; rfl
theorem wProcess_cost (E : Env) (ids : Addr → Option Key32) (pk spk : UInt32 → Option IdKeyPair) (a : Addr) (r : Rec) (m : PreKeyMsg) :
    cost (wProcess E ids pk spk a r m) ≤ 7 := by
  unfold wProcess
  by_cases h : E.trusted ids a m.identityKey = false
  · rw [if_pos h]; exact Nat.zero_le _
  · rw [if_neg h, c_bind, c_pure]; exact wProcessV3_cost E pk spk r m

/-- `Process` leaves the record as `processV3` does, or as it was. -/
theorem process_rec (E : Env) (ids : Addr → Option Key32) (pk spk : UInt32 → Option IdKeyPair) (a : Addr) (r : Rec) (m : PreKeyMsg) :
    (process E ids pk spk a r m).2.1 = r ∨ (process E ids pk spk a r m).2.1 = (processV3 E pk spk r m).2 := by
  unfold process
  by_cases h : E.trusted ids a m.identityKey = false
  · rw [if_pos h]; exact .inl rfl
  · rw [if_neg h]
    right
    generalize processV3 E pk spk r m = x
    obtain ⟨b, r'⟩ := x
    cases b <;> rfl

theorem process_prev (E : Env) (ids : Addr → Option Key32) (pk spk : UInt32 → Option IdKeyPair) (a : Addr) (r : Rec) (m : PreKeyMsg) (hr : Reachable r) :
    (process E ids pk spk a r m).2.1.prev.length ≤ 40 := by
  have h : Reachable (process E ids pk spk a r m).2.1 := by
    rcases process_rec E ids pk spk a r m with h | h
    · rw [h]; exact hr
    · rw [h]; exact .step hr (.preKeyMessage E pk spk r m)
  have := (C06_bounded _ h).2
  simpa [Rec.prevStates] using this

theorem wSMKey_val (C : Crypto) (k : SChainKey) : (wSMKey C k).val = k.msgKey C := by
  unfold wSMKey SChainKey.msgKey newSMKey
  rw [v_bind, v_bind, v_pure, wDerive_val, wHmac_val]; rfl
theorem wSMKey_cost (C : Crypto) (k : SChainKey) : cost (wSMKey C k) = 4 := by
  unfold wSMKey
  rw [c_bind, c_bind, c_pure, wDerive_cost _ _ _ _ _ (by decide), wHmac_cost]
theorem wSNext_val (C : Crypto) (k : SChainKey) : (wSNext C k).val = k.next C := rfl
theorem wSNext_cost (C : Crypto) (k : SChainKey) : cost (wSNext C k) = 1 := rfl

theorem wGroupSkip_val (C : Crypto) (it : UInt32) (n : Nat) (s : SKState) (ck : SChainKey) : (wGroupSkip C it n s ck).val = groupSkip C it n s ck := by
  induction n generalizing s ck with
  | zero => rfl
  | succ n ih =>
    rw [wGroupSkip, groupSkip]
    by_cases h : ck.iteration < it
    · rw [if_pos h, if_pos h, v_bind, wSMKey_val]
      cases ck.msgKey C with
      | err e => rfl
      | panic => rfl
      | ok k => simp only; rw [v_bind, wSNext_val, ih]
    · rw [if_neg h, if_neg h]; rfl
theorem wGroupSkip_cost (C : Crypto) (it : UInt32) (n : Nat) (s : SKState) (ck : SChainKey) : cost (wGroupSkip C it n s ck) ≤ 5 * n := by
  induction n generalizing s ck with
  | zero => exact Nat.zero_le _
  | succ n ih =>
    rw [wGroupSkip]
    by_cases h : ck.iteration < it
    · rw [if_pos h, c_bind, wSMKey_cost]
      cases (wSMKey C ck).val with
      | err e => simp only [c_pure]; omega
      | panic => simp only [c_pure]; omega
      | ok k =>
        simp only; rw [c_bind, wSNext_cost]
        have := ih (s.addKey k) (wSNext C ck).val
        omega
    · rw [if_neg h]; exact Nat.zero_le _

theorem wGetSenderKey_val (C : Crypto) (s : SKState) (it : UInt32) : (wGetSenderKey C s it).val = getSenderKey C s it := by
  unfold wGetSenderKey getSenderKey
  by_cases h : it < s.chain.iteration
  · rw [if_pos h, if_pos h]
    cases s.hasKey it <;> rfl
  · rw [if_neg h, if_neg h]
    by_cases h2 : 2000 < it - s.chain.iteration
    · rw [if_pos h2, if_pos h2]; rfl
    · rw [if_neg h2, if_neg h2, v_bind, wGroupSkip_val]
      generalize groupSkip C it (it - s.chain.iteration).toNat s s.chain = x
      obtain ⟨a, s'⟩ := x
      cases a with
      | err e => rfl
      | panic => rfl
      | ok ck => simp only; rw [v_bind, v_bind, v_pure, wSMKey_val, wSNext_val]
theorem wGetSenderKey_cost (C : Crypto) (s : SKState) (it : UInt32) : cost (wGetSenderKey C s it) ≤ 10005 := by
  unfold wGetSenderKey
  by_cases h : it < s.chain.iteration
  · rw [if_pos h]
    cases s.hasKey it <;> exact Nat.zero_le _
  · rw [if_neg h]
    by_cases h2 : 2000 < it - s.chain.iteration
    · rw [if_pos h2]; exact Nat.zero_le _
    · rw [if_neg h2, c_bind]
      have hn : (it - s.chain.iteration).toNat ≤ 2000 := by
        have := UInt32.le_iff_toNat_le.1 (UInt32.not_lt.1 h2)
        exact this
      have hs := wGroupSkip_cost C it (it - s.chain.iteration).toNat s s.chain
      generalize (wGroupSkip C it (it - s.chain.iteration).toNat s s.chain).val = x
      obtain ⟨a, s'⟩ := x
      cases a with
      | err e => simp only [c_pure]; omega
      | panic => simp only [c_pure]; omega
      | ok ck => simp only; rw [c_bind, c_bind, c_pure, wSNext_cost, wSMKey_cost]; omega

/-- How much the skipped messages cost when the chain is there: six calls for each. -/
theorem wSkipLoop_exact (C : Crypto) (eph : Key32) (counter : UInt32) (n : Nat) (s : SState) (ck : ChainKey) (c : Chain)
    (h : s.receiverChain eph = some c) (hn : ck.index.toNat + n = counter.toNat) : cost (wSkipLoop C eph counter n s ck) = 6 * n := by
  induction n generalizing s ck c with
  | zero => rfl
  | succ n ih =>
    rw [wSkipLoop]
    have hlt : ck.index < counter := by rw [UInt32.lt_iff_toNat_lt]; omega
    rw [if_pos hlt, c_bind, wMsgKeys_cost, wMsgKeys_val]
    simp only [SState.setMessageKeys, h]
    rw [c_bind, wNext_cost, wNext_val]
    have hc' := receiverChain_modify h (·.addMsgKeys (ck.msgKeys C)) (by intro a; rfl)
    have hb : counter.toNat < 2 ^ 32 := counter.toNat_lt
    have hnext : (ck.index + 1).toNat = ck.index.toNat + 1 := by
      rw [UInt32.toNat_add]; simp; omega
    rw [ih _ (ck.next C) _ hc' (by rw [next_index]; omega)]
    omega

end Work

open Work

/-- C107: `wDecryptRec` is decryption of a message of an established session (`Cipher.Decrypt` on the loaded record, Model/Session), with a step for each call of a cryptographic primitive. -/
theorem C107_decrypt_value (E : Env) (pos : Nat) (a : Addr) (r : Rec) (m : SignalMsg) : (wDecryptRec E pos a r m).val = decryptRec E pos a r m := by
  unfold wDecryptRec decryptRec
  rw [v_bind, v_pure, wRecord_val]
  rfl

/-- C107: whatever message comes in — from anybody, with any counter — and whatever record of a session the library can come to, decryption ends after at most 1 230 697 calls of cryptographic
primitives: 30 017 for each of the at most 41 states. -/
theorem C107_decrypt_work (E : Env) (pos : Nat) (a : Addr) (r : Rec) (m : SignalMsg) (hr : Reachable r) : (wDecryptRec E pos a r m).steps.length ≤ 41 * 30017 := by
  show cost (wDecryptRec E pos a r m) ≤ _
  unfold wDecryptRec
  rw [c_bind, c_pure]
  have h := (C06_bounded r hr).2
  simp only [Rec.prevStates, List.length_map] at h
  have := wRecord_cost E pos r m
  refine Nat.le_trans this ?_
  exact Nat.mul_le_mul_right _ (by omega)

/-- C107: `wDecryptPreKeyRec` is decryption of a message that starts a session (`Cipher.DecryptMessage` on the loaded record, Model/Session), with a step for each call of a primitive. -/
theorem C107_prekey_value (E : Env) (ids : Addr → Option Key32) (pk spk : UInt32 → Option IdKeyPair) (pos : Nat) (a : Addr) (r : Rec) (m : PreKeyMsg) :
    (wDecryptPreKeyRec E ids pk spk pos a r m).val = decryptPreKeyRec E ids pk spk pos a r m := by
  unfold wDecryptPreKeyRec decryptPreKeyRec
  rw [v_bind, wProcess_val]
  generalize process E ids pk spk a r m = x
  obtain ⟨b, r1, eff⟩ := x
  cases b with
  | err e => rfl
  | panic => rfl
  | ok id => simp only; rw [v_bind, v_pure, wRecord_val]; rfl

/-- C107: a message that starts a session costs at most 7 calls more: four Diffie-Hellmans and a key derivation. -/
theorem C107_prekey_work (E : Env) (ids : Addr → Option Key32) (pk spk : UInt32 → Option IdKeyPair) (pos : Nat) (a : Addr) (r : Rec) (m : PreKeyMsg) (hr : Reachable r) :
    (wDecryptPreKeyRec E ids pk spk pos a r m).steps.length ≤ 7 + 41 * 30017 := by
  show cost (wDecryptPreKeyRec E ids pk spk pos a r m) ≤ _
  unfold wDecryptPreKeyRec
  rw [c_bind]
  have h1 := wProcess_cost E ids pk spk a r m
  have h2 := process_prev E ids pk spk a r m hr
  rw [wProcess_val]
  generalize process E ids pk spk a r m = x at h2 ⊢
  obtain ⟨b, r1, eff⟩ := x
  cases b with
  | err e => simp only [c_pure]; omega
  | panic => simp only [c_pure]; omega
  | ok id =>
    simp only at h2 ⊢
    rw [c_bind, c_pure]
    have h3 := wRecord_cost E pos r1 m.message
    have h4 : (1 + r1.prev.length) * 30017 ≤ 41 * 30017 := Nat.mul_le_mul_right _ (by omega)
    omega

/-- C107: `wGroupDecrypt` is decryption of a group message (`GroupCipher.Decrypt` on the loaded record, Model/Groups), with a step for each call of a primitive. -/
theorem C107_group_value (C : Crypto) (S : Ser SKStruct) (r : Option GRec) (m : SenderKeyMsg) : (wGroupDecrypt C S r m).val = groupDecrypt C S r m := by
  unfold wGroupDecrypt groupDecrypt
  cases r with
  | none => rfl
  | some l =>
    cases l with
    | nil => rfl
    | cons s0 rest =>
      simp only
      cases (s0 :: rest).find? (fun s => s.keyId == m.keyId) with
      | none => rfl
      | some s =>
        simp only
        cases m.serialize S with
        | err e => rfl
        | panic => rfl
        | ok body =>
          simp only
          rw [v_bind]
          by_cases hv : C.verify s.signing.pub body m.sig = false
          · rw [if_pos hv, if_pos hv]; rfl
          · rw [if_neg hv, if_neg hv, v_bind, wGetSenderKey_val]
            generalize getSenderKey C s m.iteration = x
            obtain ⟨b, s'⟩ := x
            cases b with
            | err e => rfl
            | panic => rfl
            | ok o => cases o with
              | none => rfl
              | some mk =>
                simp only
                rw [v_bind]
                cases decryptCbc C (some mk.iv) mk.cipherKey (m.ciphertext.getD []) <;> rfl

/-- C107: a group message costs at most 10 007 calls, and one call — the check of the signature — unless it is signed with the key of a sender we know. -/
theorem C107_group_work (C : Crypto) (S : Ser SKStruct) (r : Option GRec) (m : SenderKeyMsg) :
    (wGroupDecrypt C S r m).steps.length ≤ 10007 ∧
    ((∀ l, r = some l → ∀ s ∈ l, ∀ body, m.serialize S = .ok body → C.verify s.signing.pub body m.sig = false) → (wGroupDecrypt C S r m).steps.length ≤ 1) := by
  show cost (wGroupDecrypt C S r m) ≤ _ ∧ (_ → cost (wGroupDecrypt C S r m) ≤ _)
  unfold wGroupDecrypt
  cases r with
  | none => exact ⟨Nat.zero_le _, fun _ => Nat.zero_le _⟩
  | some l =>
    cases l with
    | nil => exact ⟨Nat.zero_le _, fun _ => Nat.zero_le _⟩
    | cons s0 rest =>
      simp only
      cases hf : (s0 :: rest).find? (fun s => s.keyId == m.keyId) with
      | none => exact ⟨Nat.zero_le _, fun _ => Nat.zero_le _⟩
      | some s =>
        have hmem := List.mem_of_find?_eq_some hf
        simp only
        cases hser : m.serialize S with
        | err e => exact ⟨Nat.zero_le _, fun _ => Nat.zero_le _⟩
        | panic => exact ⟨Nat.zero_le _, fun _ => Nat.zero_le _⟩
        | ok body =>
          simp only
          rw [c_bind, c_tick]
          by_cases hv : C.verify s.signing.pub body m.sig = false
          · rw [if_pos hv, c_pure]; exact ⟨by omega, fun _ => by omega⟩
          · refine ⟨?_, fun h => absurd (h _ rfl s hmem body rfl) hv⟩
            rw [if_neg hv, c_bind]
            have h1 := wGetSenderKey_cost C s m.iteration
            generalize (wGetSenderKey C s m.iteration).val = x
            obtain ⟨b, s'⟩ := x
            cases b with
            | err e => simp only [c_pure]; omega
            | panic => simp only [c_pure]; omega
            | ok o => cases o with
              | none => simp only [c_pure]; omega
              | some mk =>
                simp only
                rw [c_bind, c_tick]
                cases decryptCbc C (some mk.iv) mk.cipherKey (m.ciphertext.getD []) <;> simp only [c_pure] <;> omega

/-- C107: `wEncryptRec` is encryption (`Cipher.Encrypt` on the loaded record, Model/Session), with a step for each call of a primitive. -/
theorem C107_encrypt_value (E : Env) (a : Addr) (r : Rec) (pt : Bytes) : (wEncryptRec E a r pt).val = encryptRec E a r pt := by
  have h : (wEncryptState E r.state pt).val = encryptState E r.state pt := by
    unfold wEncryptState encryptState
    cases r.state.senderChain with
    | none => rfl
    | some sc =>
      simp only
      rw [v_bind, wMsgKeys_val, v_bind]
      cases encryptBody E.C (sc.chainKey.msgKeys E.C) pt with
      | err e => rfl
      | panic => rfl
      | ok body =>
        simp only
        rw [v_bind]
        cases newSignalMessage E.C E.S r.state.version sc.chainKey.index r.state.previousCounter (sc.chainKey.msgKeys E.C).macKey sc.pair.pub body r.state.localIdentity
            r.state.remoteIdentity with
        | err e => rfl
        | panic => rfl
        | ok sm =>
          simp only
          rw [v_bind, wNext_val]
          cases r.state.pendingPreKey with
          | none => rfl
          | some pp =>
            simp only
            cases newPreKeyMessage E.S r.state.version r.state.localRegistrationId pp.preKeyId pp.signedPreKeyId pp.baseKey r.state.localIdentity sm <;> rfl
  unfold wEncryptRec encryptRec
  rw [v_bind, v_pure, h]
  rfl

/-- C107: encrypting costs at most eight calls, whatever the record holds and however many messages were sent before. -/
theorem C107_encrypt_work (E : Env) (a : Addr) (r : Rec) (pt : Bytes) : (wEncryptRec E a r pt).steps.length ≤ 8 := by
  show cost (wEncryptRec E a r pt) ≤ _
  unfold wEncryptRec
  rw [c_bind, c_pure]
  unfold wEncryptState
  cases r.state.senderChain with
  | none => exact Nat.zero_le _
  | some sc =>
    simp only
    rw [c_bind, wMsgKeys_cost, c_bind, c_tick]
    cases encryptBody E.C (wMsgKeys E.C sc.chainKey).val pt with
    | err e => simp only [c_pure]; omega
    | panic => simp only [c_pure]; omega
    | ok body =>
      simp only
      rw [c_bind, c_tick]
      cases newSignalMessage E.C E.S r.state.version sc.chainKey.index r.state.previousCounter (wMsgKeys E.C sc.chainKey).val.macKey sc.pair.pub body r.state.localIdentity
          r.state.remoteIdentity with
      | err e => simp only [c_pure]; omega
      | panic => simp only [c_pure]; omega
      | ok sm =>
        simp only
        rw [c_bind, wNext_cost]
        cases r.state.pendingPreKey with
        | none => simp only [c_pure]; omega
        | some pp =>
          simp only
          cases newPreKeyMessage E.S r.state.version r.state.localRegistrationId pp.preKeyId pp.signedPreKeyId pp.baseKey r.state.localIdentity sm <;> simp only [c_pure] <;> omega

/-- C107: how much work a stranger can make. Any message, with any MAC and any body, for a receiving chain that exists and with a counter `n ≤ 5000` ahead of it makes a state that has this chain
compute `6 * (n + 1)` HMACs of keys, and then check the MAC (one step more; one for the body if the MAC was right). Its sender needs to know no key, only a ratchet key of the conversation, which is sent in clear. -/
theorem C107_forgery_work (E : Env) (draw : Option Key32) (s : SState) (m : SignalMsg) (c : Chain) (n : Nat) (hs : s.senderChain ≠ none) (hv : m.struct.version = s.version)
    (hc : s.receiverChain m.senderRatchetKey = some c) (hn : n ≤ 5000) (hm : c.chainKey.index.toNat + n = m.struct.counter.toNat) :
    6 * (n + 1) + 1 ≤ (wDecryptWithState E draw s m).steps.length ∧ (wDecryptWithState E draw s m).steps.length ≤ 6 * (n + 1) + 2 := by
  show _ ≤ cost (wDecryptWithState E draw s m) ∧ cost (wDecryptWithState E draw s m) ≤ _
  unfold wDecryptWithState
  cases hsc : s.senderChain with
  | none => exact absurd hsc hs
  | some sc =>
    have hv' : ¬ (m.struct.version ≠ s.version) := fun h => h hv
    simp only
    rw [if_neg hv']
    have hg : wGetOrCreateChainKey E.C draw s m.senderRatchetKey = pure (.ok c.chainKey, s, false) := by
      unfold wGetOrCreateChainKey; rw [hc]
    rw [hg, c_bind, c_pure, v_pure]
    simp only
    rw [c_bind]
    have hlt : ¬ m.struct.counter < c.chainKey.index := by rw [UInt32.lt_iff_toNat_lt]; omega
    have hle : c.chainKey.index ≤ m.struct.counter := UInt32.not_lt.1 hlt
    have hsub : (m.struct.counter - c.chainKey.index).toNat = n := by rw [UInt32.toNat_sub_of_le _ _ hle]; omega
    have hfut : ¬ maxFutureMessages < m.struct.counter - c.chainKey.index := by
      rw [UInt32.lt_iff_toNat_lt, hsub]; show ¬ 5000 < n; omega
    have hk : cost (wGetOrCreateMessageKeys E.C s m.senderRatchetKey c.chainKey m.struct.counter) = 6 * n + 6 ∧
        ∃ mk s2, (wGetOrCreateMessageKeys E.C s m.senderRatchetKey c.chainKey m.struct.counter).val = (.ok mk, s2) := by
      unfold wGetOrCreateMessageKeys
      rw [if_neg hlt, if_neg hfut, hsub, c_bind, v_bind, wSkipLoop_val, wSkipLoop_exact E.C _ _ n s c.chainKey c hc hm, skipLoop_eq E.C _ _ n s c.chainKey c hc hle hsub.symm]
      have hc' := receiverChain_modify hc (fun a => { a with msgKeys := pushSkipped E.C n c.chainKey c.msgKeys }) (fun a => rfl)
      rw [modifyChain_congr hc (fun _ => { c with msgKeys := pushSkipped E.C n c.chainKey c.msgKeys }) (fun a => { a with msgKeys := pushSkipped E.C n c.chainKey c.msgKeys }) rfl]
      generalize s.modifyChain m.senderRatchetKey (fun a => { a with msgKeys := pushSkipped E.C n c.chainKey c.msgKeys }) = s' at hc' ⊢
      simp only
      rw [c_bind, v_bind, wNext_cost, wNext_val]
      simp only [SState.setReceiverChainKey, hc']
      rw [c_bind, v_bind, c_pure, v_pure, wMsgKeys_cost]
      exact ⟨by omega, _, _, rfl⟩
    obtain ⟨hk1, mk, s2, hk2⟩ := hk
    rw [hk1, hk2]
    simp only
    rw [c_bind, wMac_cost]
    cases (wVerifyMac E.C E.S m m.struct.version s2.remoteIdentity s2.localIdentity mk.macKey).val with
    | err e => simp only [c_pure]; omega
    | panic => simp only [c_pure]; omega
    | ok u =>
      simp only
      rw [c_bind, wBody_cost]
      cases (wDecryptBody E.C mk (m.struct.cipherText.getD [])).val <;> simp only [c_pure] <;> omega

namespace ToyWork
open Verif.Toy

/-- A message that its sender could not authenticate, three ahead of the chain. -/
def forged : SignalMsg := { msg1.message with struct := { msg1.message.struct with counter := 4, mac := some [0, 0, 0, 0, 0, 0, 0, 0] } }

set_option maxRecDepth 100000 in
/-- Bob, after Alice's first message (whose chain is then at 1), does 25 HMACs before he refuses the forged one; the real first message had cost 9 for the chains, 6 for its keys, its MAC and its body;
and his record is reachable. -/
example : (wDecryptWithState bobEnv none bobAfter forged).steps.length = 6 * (3 + 1) + 1 ∧ (wDecryptWithState bobEnv none bobAfter forged).val.1 = .err .badMac ∧
    (wDecryptWithState bobEnv (bobEnv.rng 0) bobInit msg1.message).steps.length = 17 ∧ bobAfter.senderChain ≠ none ∧
    (bobAfter.receiverChain forged.senderRatchetKey).map (·.chainKey.index) = some 1 ∧ forged.struct.version = bobAfter.version ∧
    (wEncryptRec aliceEnv bob (recOf alice1 bob) [104, 105]).steps.length = 8 := by decide +kernel

example : Reachable (processV3 bobEnv bobStore.preKeys bobStore.signedPreKeys Rec.new msg1).2 := .step .new (.preKeyMessage ..)

end ToyWork

end Verif
