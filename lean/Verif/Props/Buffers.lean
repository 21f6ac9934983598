import Verif.Proofs.Buffers
import Verif.Props.Groups2
import Verif.Proofs.ToyFlow
/-
C46, C47: what happens to the caller's buffers.
-/
set_option linter.unusedSimpArgs false
namespace Verif

/-- Everything outside the `n` bytes from position `i` of array `a` is as before. -/
def Mem.SameOutside (m m' : Mem) (a i n : Nat) : Prop :=
  (∀ j < m.arrays.length, j ≠ a → m'.get j = m.get j) ∧ (m'.get a).take i = (m.get a).take i ∧ (m'.get a).drop (i + n) = (m.get a).drop (i + n) ∧
  (m'.get a).length = (m.get a).length

/-- Everything that existed is as before. -/
def Mem.Same (m m' : Mem) : Prop := ∀ j < m.arrays.length, m'.get j = m.get j

theorem Mem.Same.read {m m' : Mem} (h : m.Same m') {s : Slice} (hs : s.In m) : m'.read s = m.read s := Mem.read_congr (h _ hs.1)

theorem encryptCbcM_frame (C : Crypto) (slack : Nat) (d : Option Block) (iv : Option Bytes) (key : Bytes) {m : Mem} {pt : Slice} (h : pt.In m)
    {res : Res Slice} {m' : Mem} (he : encryptCbcM C slack d iv key m pt = (res, m')) :
    m'.read pt = m.read pt ∧ m.SameOutside m' pt.arr (pt.off + pt.len) (16 - pt.len % 16) ∧ (pt.cap < pt.len + (16 - pt.len % 16) → m.Same m') := by
  obtain ⟨res', m'', e1, -, -, e4, e5⟩ := encryptCbcM_spec C slack d iv key h
  rw [he] at e1
  cases e1
  obtain ⟨h1, h2, h3⟩ := h
  by_cases hc : pt.len + (16 - pt.len % 16) ≤ pt.cap
  · rw [if_pos hc] at e5
    refine ⟨?_, ⟨e4, ?_, ?_, ?_⟩, fun hlt => by omega⟩
    · simp only [Mem.read, e5]
      exact overwrite_before (Nat.le_refl _) (by omega)
    · rw [e5]
      have := overwrite_before (b := m.get pt.arr) (i := pt.off + pt.len) (o := 0) (n := pt.off + pt.len) (x := List.replicate (16 - pt.len % 16) (UInt8.ofNat (16 - pt.len % 16))) (by omega) (by omega)
      simpa using this
    · rw [e5]
      simp only [overwrite, List.length_replicate]
      rw [List.drop_append, List.drop_of_length_le (by simp; omega), List.nil_append]
      have : (List.take (pt.off + pt.len) (m.get pt.arr) ++ List.replicate (16 - pt.len % 16) (UInt8.ofNat (16 - pt.len % 16))).length
          = pt.off + pt.len + (16 - pt.len % 16) := by simp; omega
      rw [this, Nat.sub_self, List.drop_zero]
    · rw [e5, overwrite_length (by simp; omega)]
  · rw [if_neg hc] at e5
    refine ⟨Mem.read_congr e5, ⟨e4, by rw [e5], by rw [e5], by rw [e5]⟩, fun _ j hj => ?_⟩
    by_cases hj2 : j = pt.arr
    · subst hj2; exact e5
    · exact e4 j hj hj2

theorem groupEncryptM_mem (C : Crypto) (S : Ser SKStruct) (slack : Nat) (rand : Arr 64) (r : Option GRec) {mem : Mem} {pt : Slice} (h : pt.In mem) :
    ∃ mem', groupEncryptM C S slack rand r mem pt =
      ((groupEncrypt C S rand r (mem.read pt)).1, (groupEncrypt C S rand r (mem.read pt)).2.1, (groupEncrypt C S rand r (mem.read pt)).2.2, mem') ∧
      (mem' = mem ∨ ∃ d iv key res, encryptCbcM C slack d iv key mem pt = (res, mem')) := by
  unfold groupEncryptM groupEncrypt
  cases r with
  | none => exact ⟨mem, rfl, .inl rfl⟩
  | some l =>
    cases l with
    | nil => exact ⟨mem, rfl, .inl rfl⟩
    | cons s rest =>
      simp only
      cases hk : s.chain.msgKey C with
      | err e => exact ⟨mem, rfl, .inl rfl⟩
      | panic => exact ⟨mem, rfl, .inl rfl⟩
      | ok mk =>
        simp only [Res.bind]
        obtain ⟨res, m', e1, e2, -⟩ := encryptCbcM_spec C slack none (some mk.iv) mk.cipherKey h
        rw [e1, ← e2]
        cases res with
        | err e => exact ⟨m', rfl, .inr ⟨_, _, _, _, e1⟩⟩
        | panic => exact ⟨m', rfl, .inr ⟨_, _, _, _, e1⟩⟩
        | ok ct =>
          simp only [Res.map]
          cases hm : newSenderKeyMessage C S s.keyId mk.iteration (m'.read ct) s.signing.priv rand with
          | err e => exact ⟨m', rfl, .inr ⟨_, _, _, _, e1⟩⟩
          | panic => exact ⟨m', rfl, .inr ⟨_, _, _, _, e1⟩⟩
          | ok m => exact ⟨m', rfl, .inr ⟨_, _, _, _, e1⟩⟩

/-- **C46 (what holds).** Encrypting (session: `encryptBodyM`, group: `groupEncryptM`) yields what the value-level model says, leaves the plaintext itself and everything else as it was, except possibly the
`16 - len % 16` bytes following the plaintext in the caller's array; and not even those when the slice's spare capacity is smaller. -/
theorem C46_plaintext_kept_partial (C : Crypto) (S : Ser SKStruct) (slack : Nat) (k : MsgKeys) (rand : Arr 64) (r : Option GRec) (m : Mem) (pt : Slice) (h : pt.In m) :
    (∃ res m', encryptBodyM C slack k m pt = (res, m') ∧ res.map m'.read = encryptBody C k (m.read pt) ∧ (∀ s, res = .ok s → m.arrays.length ≤ s.arr) ∧
      m'.read pt = m.read pt ∧ m.SameOutside m' pt.arr (pt.off + pt.len) (16 - pt.len % 16) ∧
      (pt.cap < pt.len + (16 - pt.len % 16) → m.Same m')) ∧
    (∃ res r' b m', groupEncryptM C S slack rand r m pt = (res, r', b, m') ∧ groupEncrypt C S rand r (m.read pt) = (res, r', b) ∧
      m'.read pt = m.read pt ∧ m.SameOutside m' pt.arr (pt.off + pt.len) (16 - pt.len % 16) ∧
      (pt.cap < pt.len + (16 - pt.len % 16) → m.Same m')) := by
  constructor
  · obtain ⟨res, m', e1, e2, e3, -⟩ := encryptCbcM_spec C slack none (some k.iv) k.cipherKey h
    exact ⟨res, m', e1, e2, e3, encryptCbcM_frame C slack _ _ _ h e1⟩
  · obtain ⟨m', e1, e2⟩ := groupEncryptM_mem C S slack rand r h
    refine ⟨_, _, _, m', e1, rfl, ?_⟩
    rcases e2 with rfl | ⟨d, iv, key, res, e2⟩
    · exact ⟨rfl, ⟨fun _ _ _ => rfl, rfl, rfl, rfl⟩, fun _ _ _ => rfl⟩
    · exact encryptCbcM_frame C slack _ _ _ h e2

/-- **C46 is false**: whenever the caller's slice has room for the padding, the bytes after the plaintext are overwritten with it; so the caller's buffer
changes unless those bytes happened to be the padding already. -/
theorem C46_spare_capacity_false (C : Crypto) (slack : Nat) (k : MsgKeys) (m : Mem) (pt : Slice) (h : pt.In m) (hroom : pt.len + (16 - pt.len % 16) ≤ pt.cap) :
    (encryptBodyM C slack k m pt).2.read ⟨pt.arr, pt.off + pt.len, 16 - pt.len % 16, 16 - pt.len % 16⟩ =
      List.replicate (16 - pt.len % 16) (UInt8.ofNat (16 - pt.len % 16)) := by
  obtain ⟨res, m', e1, -, -, -, e5⟩ := encryptCbcM_spec C slack none (some k.iv) k.cipherKey h
  rw [if_pos hroom] at e5
  simp only [encryptBodyM, e1, Mem.read, e5]
  have := overwrite_at (b := m.get pt.arr) (i := pt.off + pt.len) (x := List.replicate (16 - pt.len % 16) (UInt8.ofNat (16 - pt.len % 16))) (by have := h.2; omega)
  rw [List.length_replicate] at this
  exact this

/-- The message buffer of the next message destroyed: a caller keeping "hi" and the next text in one array. -/
example : let m : Mem := ⟨[[104, 105] ++ List.replicate 20 7]⟩
    let pt : Slice := ⟨0, 0, 2, 22⟩
    pt.In m ∧ ∀ slack k, (encryptBodyM Toy.C slack k m pt).2.read ⟨0, 2, 14, 14⟩ = List.replicate 14 14 := by
  refine ⟨by unfold Slice.In; decide, fun slack k => ?_⟩
  exact C46_spare_capacity_false Toy.C slack k ⟨[[104, 105] ++ List.replicate 20 7]⟩ ⟨0, 0, 2, 22⟩ (by unfold Slice.In; decide) (by decide)

/-- Decrypting a session message body: on a copy. -/
theorem decryptBodyM_spec (C : Crypto) (k : MsgKeys) {m : Mem} {body : Slice} (h : body.In m) :
    ∃ res m', decryptBodyM C k m body = (res, m') ∧ res.map m'.read = decryptBody C k (m.read body) ∧ m.Same m' ∧
      ∀ p, res = .ok p → p.arr = m.fresh := by
  have hl := h.read_length
  have hin : (⟨m.fresh, 0, body.len, body.len⟩ : Slice).In (m.alloc (m.read body)) :=
    ⟨by simp [Mem.fresh], Nat.le_refl _, by simp only; rw [Mem.get_alloc_new, hl]; omega⟩
  have hread : (m.alloc (m.read body)).read ⟨m.fresh, 0, body.len, body.len⟩ = m.read body := by
    rw [show ∀ (M : Mem) (a b c : Nat), M.read ⟨a, 0, b, c⟩ = (M.get a).take b from fun _ _ _ _ => rfl, Mem.get_alloc_new, List.take_of_length_le (by omega)]
  obtain ⟨res, m', e1, e2, -, e4, e5, -⟩ := decryptCbcM_spec C k.iv k.cipherKey hin
  refine ⟨res, m', e1, by rw [e2, hread]; rfl, ?_, fun p hp => (e5 p hp).1⟩
  intro j hj
  rw [e4 j (by simp only [Mem.fresh]; omega), Mem.get_alloc_old _ _ _ hj]

/-- **C47 (sessions).** Decrypting a message object of a session gives what the value-level model says, and changes no existing array: the object still holds the same
message, and the returned plaintext is in a new array. -/
theorem C47_session_message_kept_partial (E : Env) (draw : Option Key32) (s : SState) (mem : Mem) (m : SignalMsg) (body : Slice) (h : body.In mem) :
    ∃ res s' d mem', decryptWithStateM E draw s mem m body = (res, s', d, mem') ∧
      decryptWithState E draw s (m.at mem body) = (res.map (fun x => (mem'.read x.1, x.2)), s', d) ∧
      mem.Same mem' ∧ m.at mem' body = m.at mem body ∧ ∀ x, res = .ok x → mem.arrays.length ≤ x.1.arr := by
  have triv : ∀ mem', mem.Same mem' → m.at mem' body = m.at mem body := by
    intro mem' hs; simp only [SignalMsg.at, hs.read h]
  have refl : mem.Same mem := fun _ _ => rfl
  unfold decryptWithStateM decryptWithState
  simp only
  cases hsc : s.senderChain with
  | none => exact ⟨_, _, _, _, rfl, rfl, refl, rfl, by simp⟩
  | some sc =>
    simp only
    by_cases hv : (m.at mem body).struct.version ≠ s.version
    · rw [if_pos hv, if_pos hv]; exact ⟨_, _, _, _, rfl, rfl, refl, rfl, by simp⟩
    rw [if_neg hv, if_neg hv]
    cases hck : getOrCreateChainKey E.C draw s (m.at mem body).senderRatchetKey with
    | mk r1 y =>
      obtain ⟨s1, d⟩ := y
      cases r1 with
      | err e => exact ⟨_, _, _, _, rfl, rfl, refl, rfl, by simp⟩
      | panic => exact ⟨_, _, _, _, rfl, rfl, refl, rfl, by simp⟩
      | ok ck =>
        simp only
        cases hmk : getOrCreateMessageKeys E.C s1 (m.at mem body).senderRatchetKey ck (m.at mem body).struct.counter with
        | mk r2 s2 =>
          cases r2 with
          | err e => exact ⟨_, _, _, _, rfl, rfl, refl, rfl, by simp⟩
          | panic => exact ⟨_, _, _, _, rfl, rfl, refl, rfl, by simp⟩
          | ok mk =>
            simp only
            cases hvm : (m.at mem body).verifyMac E.C E.S (m.at mem body).struct.version s2.remoteIdentity s2.localIdentity mk.macKey with
            | err e => exact ⟨_, _, _, _, rfl, rfl, refl, rfl, by simp⟩
            | panic => exact ⟨_, _, _, _, rfl, rfl, refl, rfl, by simp⟩
            | ok u =>
              simp only
              obtain ⟨res, mem', e1, e2, e3, e4⟩ := decryptBodyM_spec E.C mk h
              have : decryptBody E.C mk ((m.at mem body).struct.cipherText.getD []) = res.map mem'.read := by rw [e2]; rfl
              rw [e1, this]
              cases res with
              | err e => exact ⟨_, _, _, _, rfl, rfl, e3, triv _ e3, by simp⟩
              | panic => exact ⟨_, _, _, _, rfl, rfl, e3, triv _ e3, by simp⟩
              | ok p =>
                refine ⟨_, _, _, _, rfl, rfl, e3, triv _ e3, ?_⟩
                intro x hx
                simp only [Res.ok.injEq] at hx
                subst hx
                rw [e4 p rfl]; exact Nat.le_refl _

/-- **C47 (groups): what happens exactly.** Decrypting a group message object gives what the value-level model says; but when it succeeds, the object's ciphertext has been replaced: it now starts with the
plaintext.  (Nothing else changes.) -/
theorem C47_group_message_exact (C : Crypto) (S : Ser SKStruct) (r : Option GRec) (mem : Mem) (m : SenderKeyMsg) (body : Slice) (h : body.In mem) :
    ∃ res r' b mem', groupDecryptM C S r mem m body = (res, r', b, mem') ∧
      groupDecrypt C S r (m.at mem body) = (res.map mem'.read, r', b) ∧
      (∀ i, i ≠ body.arr → mem'.get i = mem.get i) ∧
      (∀ p, res = .ok p → (mem'.read body).take p.len = mem'.read p ∧ p.arr = body.arr) := by
  unfold groupDecryptM groupDecrypt
  simp only
  have refl : ∀ i, i ≠ body.arr → mem.get i = mem.get i := fun _ _ => rfl
  cases r with
  | none => exact ⟨_, _, _, _, rfl, rfl, refl, by simp⟩
  | some l =>
    cases l with
    | nil => exact ⟨_, _, _, _, rfl, rfl, refl, by simp⟩
    | cons s0 rest =>
      simp only
      cases hf : (s0 :: rest).find? (fun s => s.keyId == (m.at mem body).keyId) with
      | none => exact ⟨_, _, _, _, rfl, rfl, refl, by simp⟩
      | some s =>
        simp only
        cases hser : (m.at mem body).serialize S with
        | err e => exact ⟨_, _, _, _, rfl, rfl, refl, by simp⟩
        | panic => exact ⟨_, _, _, _, rfl, rfl, refl, by simp⟩
        | ok b =>
          simp only
          by_cases hv : C.verify s.signing.pub b (m.at mem body).sig = false
          · rw [if_pos hv, if_pos hv]; exact ⟨_, _, _, _, rfl, rfl, refl, by simp⟩
          rw [if_neg hv, if_neg hv]
          cases hk : getSenderKey C s (m.at mem body).iteration with
          | mk kr s' =>
            simp only
            cases kr with
            | err e => exact ⟨_, _, _, _, rfl, rfl, refl, by simp⟩
            | panic => exact ⟨_, _, _, _, rfl, rfl, refl, by simp⟩
            | ok ok =>
              cases ok with
              | none => exact ⟨_, _, _, _, rfl, rfl, refl, by simp⟩
              | some mk =>
                simp only
                obtain ⟨res, mem', e1, e2, -, e4, e5, -⟩ := decryptCbcM_spec C mk.iv mk.cipherKey h
                have : decryptCbc C (some mk.iv) mk.cipherKey ((m.at mem body).ciphertext.getD []) = res.map mem'.read := by rw [e2]; rfl
                rw [e1, this]
                cases res with
                | err e => exact ⟨_, _, _, _, rfl, rfl, e4, by simp⟩
                | panic => exact ⟨_, _, _, _, rfl, rfl, e4, by simp⟩
                | ok p =>
                  refine ⟨_, _, _, _, rfl, rfl, e4, ?_⟩
                  intro q hq
                  simp only [Res.ok.injEq] at hq
                  subst hq
                  obtain ⟨f1, f2, f3⟩ := e5 p rfl
                  refine ⟨?_, f1⟩
                  simp only [Mem.read, List.take_take, f1, f2]
                  rw [Nat.min_eq_left f3]

section
open Toy
set_option maxRecDepth 100000

/-- A received group message in memory, and the receiver's record. -/
def gMem : Mem := ⟨[gMsg0.ciphertext.getD []]⟩
def gBody : Slice := ⟨0, 0, 16, 16⟩
def gRecv : Option GRec := match (GStore.empty.process gName gSkdm).2.load gName with
  | .ok r => r
  | _ => none
/-- Memory after decrypting it. -/
def gMem' : Mem := (groupDecryptM C protoSK gRecv gMem gMsg0 gBody).2.2.2

/-- **C47 is false for groups**: decrypting succeeds, but afterwards the object holds the plaintext (and forwarding it would reveal it), its signature no longer verifies, and decrypting the
same object again, with the receiver's record as it was before, fails. -/
theorem C47_group_false :
    (groupDecryptM C protoSK gRecv gMem gMsg0 gBody).1.map gMem'.read = .ok [1, 2, 3] ∧
    gMsg0.at gMem gBody = gMsg0 ∧ gMsg0.at gMem' gBody ≠ gMsg0 ∧ (gMem'.read gBody).take 3 = [1, 2, 3] ∧
    (groupDecryptM C protoSK gRecv gMem' gMsg0 gBody).1 = .err .signatureFailed := by decide +kernel

/-- Non-vacuity of `C47_session_message_kept_partial`: a message that decrypts. -/
example : (⟨0, 0, (reply1.struct.cipherText.getD []).length, 32⟩ : Slice).In ⟨[(reply1.struct.cipherText.getD []) ++ List.replicate 32 0]⟩ ∧
    (decryptWithState aliceEnv (aliceEnv.rng 2) (stateOf alice3 bob) reply1).1.isOk = true := by
  refine ⟨by unfold Slice.In; decide +kernel, by decide +kernel⟩
end

/-- **C28 (DecryptCbc without an IV, in memory).** With a nil IV the first block of the argument is the IV: the value is that of the value-level model, the result is part of the argument behind
that block, which together with all other memory keeps its bytes; what follows it is overwritten by its decryption unless the call failed beforehand. -/
theorem C28_decrypt_no_iv_in_place (C : Crypto) (key : Bytes) {m : Mem} {ct : Slice} (h : ct.In m) :
    ∃ res m', decryptCbcM C none key m ct = (res, m') ∧ res.map m'.read = decryptCbc C none key (m.read ct) ∧
      m'.arrays.length = m.arrays.length ∧ (∀ i, i ≠ ct.arr → m'.get i = m.get i) ∧
      (∀ p, res = .ok p → p.arr = ct.arr ∧ p.off = ct.off + 16 ∧ 16 + p.len ≤ ct.len) ∧
      ((m' = m ∧ ∀ p, res ≠ .ok p) ∨
       ∃ x, cbcCrypt (cbcDecBlocks C key) ((m.read ct).take 16) ((m.read ct).drop 16) = .ok x ∧ (m'.read ct) = (m.read ct).take 16 ++ x ∧
        m'.get ct.arr = overwrite (m.get ct.arr) (ct.off + 16) x) := by
  have hl := h.read_length
  unfold decryptCbcM decryptCbc
  by_cases hk : aesKeyOk key = false
  · rw [if_pos hk, if_pos hk]
    exact ⟨_, _, rfl, rfl, rfl, fun _ _ => rfl, by simp, .inl ⟨rfl, by simp⟩⟩
  rw [if_neg hk, if_neg hk]
  by_cases h16 : ct.len < 16
  · rw [if_pos h16, if_pos (by omega)]
    exact ⟨_, _, rfl, rfl, rfl, fun _ _ => rfl, by simp, .inl ⟨rfl, by simp⟩⟩
  rw [if_neg h16, if_neg (by omega)]
  obtain ⟨h1, h2, h3⟩ := h
  have e : m.read ⟨ct.arr, ct.off + 16, ct.len - 16, ct.cap - 16⟩ = (m.read ct).drop 16 := by
    simp [Mem.read, List.drop_take, List.drop_drop]
  simp only [cryptBlocksM, e]
  cases hx : cbcCrypt (cbcDecBlocks C key) ((m.read ct).take 16) ((m.read ct).drop 16) with
  | err e => exact ⟨_, _, rfl, rfl, rfl, fun _ _ => rfl, by simp, .inl ⟨rfl, by simp⟩⟩
  | panic => exact ⟨_, _, rfl, rfl, rfl, fun _ _ => rfl, by simp, .inl ⟨rfl, by simp⟩⟩
  | ok x =>
    have hxl := cbcCrypt_length (cbcDecBlocks_length C key) hx
    rw [List.length_drop, hl] at hxl
    have hget : (m.write ⟨ct.arr, ct.off + 16, ct.len - 16, ct.cap - 16⟩ x).get ct.arr = overwrite (m.get ct.arr) (ct.off + 16) x := by rw [Mem.write, Mem.get_put_same _ _ _ h1]
    have hread : (m.write ⟨ct.arr, ct.off + 16, ct.len - 16, ct.cap - 16⟩ x).read ⟨ct.arr, ct.off + 16, ct.len - 16, ct.cap - 16⟩ = x := by
      simp only [Mem.read, hget]
      have := overwrite_at (b := m.get ct.arr) (i := ct.off + 16) (x := x) (by omega)
      rw [hxl] at this
      exact this
    have hin : (⟨ct.arr, ct.off + 16, ct.len - 16, ct.cap - 16⟩ : Slice).In (m.write ⟨ct.arr, ct.off + 16, ct.len - 16, ct.cap - 16⟩ x) := by
      refine ⟨by simpa [Mem.write] using h1, by simp only; omega, ?_⟩
      simp only
      rw [hget, overwrite_length (by omega)]
      omega
    have hu := unpadM_spec hin
    refine ⟨_, _, rfl, ?_, by simp [Mem.write], fun i hi => by rw [Mem.write, Mem.get_put_ne _ _ _ _ hi], ?_, .inr ⟨x, rfl, ?_, hget⟩⟩
    · simp only [Res.bind]
      rw [hu.1, hread]
    · intro p hp
      obtain ⟨a1, a2, a3⟩ := hu.2 p hp
      simp only at a1 a2 a3
      exact ⟨a1, a2, by omega⟩
    · have t : (m.read ct).take 16 = ((m.get ct.arr).drop ct.off).take 16 := by
        rw [Mem.read, List.take_take, Nat.min_eq_left (by omega)]
      rw [t]
      have hsplit : ∀ b : Bytes, (b.drop ct.off).take ct.len = (b.drop ct.off).take 16 ++ (b.drop (ct.off + 16)).take (ct.len - 16) := by
        intro b
        rw [show ct.len = 16 + (ct.len - 16) by omega, List.take_add, List.drop_drop, Nat.add_sub_cancel_left]
      have hfirst : ((overwrite (m.get ct.arr) (ct.off + 16) x).drop ct.off).take 16 = ((m.get ct.arr).drop ct.off).take 16 := by
        rw [overwrite, List.append_assoc, List.drop_append_of_le_length (by simp; omega), List.take_append_of_le_length (by simp; omega), List.drop_take]
        simp
        exact Nat.min_le_left _ _
      have h' := hread
      simp only [Mem.read, hget] at h'
      rw [Mem.read, hget, hsplit, hfirst, h']

/-- An encryption without IV decrypts in place: the case is met, and the IV stays. -/
example : ∃ c, encryptCbc Toy.C (some ⟨List.replicate 16 7, rfl⟩) none (List.replicate 32 3) [1, 2, 3] = .ok c ∧
    (Slice.mk 0 1 32 32).In ⟨[9 :: c]⟩ ∧
    decryptCbcM Toy.C none (List.replicate 32 3) ⟨[9 :: c]⟩ ⟨0, 1, 32, 32⟩ = (.ok ⟨0, 17, 3, 16⟩, ⟨[9 :: (List.replicate 16 7 ++ ([1, 2, 3] ++ List.replicate 13 13))]⟩) := by
  exact ⟨_, rfl, by unfold Slice.In; decide, by decide +kernel⟩

end Verif
