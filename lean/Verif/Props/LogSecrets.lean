import Verif.Props.Ratchet
import Verif.Props.Reformat
import Verif.Proofs.Cbc
import Verif.Spec.LogSpec
import Verif.Proofs.ToyFlow
/-
C89: what reaches the log.
-/
set_option linter.unusedSimpArgs false
namespace Verif
open LogSpec

theorem printed_append (a b : List LogCall) : printed (a ++ b) = printed a ++ printed b := by simp [printed]

/-- Only harmless lines are printed. -/
def Clean (l : List LogCall) : Prop := ∀ c ∈ printed l, ∀ a ∈ c.args, Harmless a

theorem Clean.app {a b : List LogCall} (ha : Clean a) (hb : Clean b) : Clean (a ++ b) := by
  intro c hc
  rw [printed_append, List.mem_append] at hc
  exact hc.elim (ha c) (hb c)

theorem clean_nil : Clean [] := by simp [Clean, printed]

theorem clean_debug (args : List Arg) (l : List LogCall) (h : Clean l) : Clean (⟨.debug, args⟩ :: l) := by
  intro c hc
  exact h c (by simpa [printed] using hc)

theorem clean_one (l : Level) (args : List Arg) (h : ∀ a ∈ args, Harmless a) : Clean [⟨l, args⟩] := by
  intro c hc
  have := (List.mem_filter.1 hc).1
  simp only [List.mem_singleton] at this
  subst this
  exact h

theorem verifyMacLog_clean (C : Crypto) (S : Ser SMStruct) (m : SignalMsg) (v : Int) (s r : Option Key32) (k : Bytes) : Clean (m.verifyMacLog C S v s r k) := by
  unfold SignalMsg.verifyMacLog
  split
  · split
    · exact clean_debug _ _ (clean_debug _ _ (clean_debug _ _ clean_nil))
    · exact clean_one _ _ (by simp [Harmless])
    · exact clean_nil
  · exact clean_nil

theorem decryptWithKeyLog_clean (C : Crypto) (mk : MsgKeys) (b : Bytes) : Clean (decryptWithKeyLog C mk b) := by
  unfold decryptWithKeyLog
  refine clean_debug _ _ (clean_debug _ _ ?_)
  split
  · exact clean_one _ _ (by simp [Harmless, texts])
  · exact clean_nil

theorem decryptWithStateLog_clean (E : Env) (d : Option Key32) (s : SState) (m : SignalMsg) : Clean (decryptWithStateLog E d s m) := by
  unfold decryptWithStateLog
  refine clean_debug _ _ ?_
  split
  · exact clean_one _ _ (by simp [Harmless, texts])
  · split
    · exact clean_one _ _ (by simp [Harmless, texts])
    · split
      · exact clean_one _ _ (by simp [Harmless, texts])
      · exact clean_nil
      · split
        · exact clean_one _ _ (by simp [Harmless, texts])
        · exact clean_nil
        · refine Clean.app (verifyMacLog_clean _ _ _ _ _ _ _) ?_
          split
          · exact clean_one _ _ (by simp [Harmless, texts])
          · exact clean_nil
          · exact decryptWithKeyLog_clean _ _ _

theorem tryPreviousLog_clean (E : Env) (m : SignalMsg) (l : List Nat) (r : Rec) (pos : Nat) : Clean (tryPreviousLog E m l r pos) := by
  induction l generalizing r pos with
  | nil => exact clean_nil
  | cons a l ih =>
    rw [tryPreviousLog]
    refine Clean.app (decryptWithStateLog_clean _ _ _ _) ?_
    split
    · exact ih _ _
    · exact clean_nil

theorem decryptWithRecordLog_clean (E : Env) (pos : Nat) (r : Rec) (m : SignalMsg) : Clean (decryptWithRecordLog E pos r m) := by
  unfold decryptWithRecordLog
  refine Clean.app (clean_debug _ _ (decryptWithStateLog_clean _ _ _ _)) ?_
  split
  · exact Clean.app (clean_one _ _ (by simp [Harmless])) (tryPreviousLog_clean _ _ _ _ _)
  · exact clean_nil

/-- **C89 (the default logger).** Whatever the session, the message and the stores: `Encrypt` prints nothing, and the lines printed by `Decrypt` and
`DecryptMessage` are made of eight fixed texts and errors.  No key, no MAC, no message byte is printed. -/
theorem C89_default_logger_partial (E : Env) (ids : Addr → Option Key32) (preKeys signedPreKeys : UInt32 → Option IdKeyPair) (pos : Nat) (a : Addr)
    (r : Rec) (s : SState) (plaintext : Bytes) (m : SignalMsg) (pm : PreKeyMsg) :
    printed (encryptLog E s plaintext) = [] ∧
    (∀ c ∈ printed (decryptWithRecordLog E pos r m), ∀ x ∈ c.args, Harmless x) ∧
    (∀ c ∈ printed (decryptPreKeyLog E ids preKeys signedPreKeys pos a r pm), ∀ x ∈ c.args, Harmless x) := by
  refine ⟨?_, decryptWithRecordLog_clean E pos r m, ?_⟩
  · unfold encryptLog
    split
    · rfl
    · dsimp only
      split <;> simp [printed]
  · show Clean _
    unfold decryptPreKeyLog
    split
    · exact clean_nil
    · refine Clean.app ?_ ?_
      · unfold processV3Log
        refine clean_debug _ _ ?_
        split
        · exact clean_one _ _ (by simp [Harmless, texts])
        · split
          · split
            · exact clean_one _ _ (by simp [Harmless])
            · exact clean_nil
          · exact clean_nil
      · split
        · exact decryptWithRecordLog_clean _ _ _ _
        · exact clean_nil

/-! ### The log tells the outcome -/

theorem verifyMacLog_quiet (C : Crypto) (S : Ser SMStruct) (m : SignalMsg) (v : Int) (s r : Option Key32) (k : Bytes) (h : m.verifyMac C S v s r k = .ok ()) :
    printed (m.verifyMacLog C S v s r k) = [] := by
  unfold SignalMsg.verifyMac at h
  unfold SignalMsg.verifyMacLog
  cases h1 : newSignalMessageFromStruct m.struct with
  | err e => simp [h1] at h
  | panic => simp [h1] at h
  | ok m' =>
    simp only [h1, Res.bind_ok] at h ⊢
    cases h2 : S.ser { m'.struct with mac := none, version := 0 } with
    | err e => simp [h2] at h
    | panic => simp [h2] at h
    | ok b =>
      simp only [h2, Res.bind_ok] at h ⊢
      cases h3 : getMac C v s r k (itoa m.struct.version ++ b) with
      | err e => simp [h3] at h
      | panic => simp [h3] at h
      | ok o => simp [printed]

theorem decryptWithStateLog_quiet (E : Env) (d : Option Key32) (s : SState) (m : SignalMsg) (x : Bytes × MsgKeys) (s' : SState) (b : Bool)
    (h : decryptWithState E d s m = (.ok x, s', b)) : printed (decryptWithStateLog E d s m) = [] := by
  unfold decryptWithState at h
  unfold decryptWithStateLog
  cases hsc : s.senderChain with
  | none => simp [hsc] at h
  | some sc =>
    simp only [hsc] at h ⊢
    by_cases hv : m.struct.version ≠ s.version
    · rw [if_pos hv] at h; simp at h
    · rw [if_neg hv] at h ⊢
      generalize getOrCreateChainKey E.C d s m.senderRatchetKey = g at h ⊢
      obtain ⟨g, s1, d1⟩ := g
      cases g with
      | err e => simp at h
      | panic => simp at h
      | ok ck =>
        simp only at h ⊢
        generalize getOrCreateMessageKeys E.C s1 m.senderRatchetKey ck m.struct.counter = g at h ⊢
        obtain ⟨g, s2⟩ := g
        cases g with
        | err e => simp at h
        | panic => simp at h
        | ok mk =>
          simp only at h ⊢
          cases hm : m.verifyMac E.C E.S m.struct.version s2.remoteIdentity s2.localIdentity mk.macKey with
          | err e => simp [hm] at h
          | panic => simp [hm] at h
          | ok u =>
            cases u
            simp only [hm] at h ⊢
            have hq := verifyMacLog_quiet _ _ _ _ _ _ _ hm
            cases hb : decryptBody E.C mk (m.struct.cipherText.getD []) with
            | err e => simp [hb] at h
            | panic => simp [hb] at h
            | ok p =>
              unfold decryptWithKeyLog
              rw [hb]
              show printed ([_] ++ (_ ++ ([_, _] ++ []))) = []
              rw [printed_append, printed_append, hq]
              simp [printed]

/-- **C89 (outcomes).** A message accepted by the current session prints nothing; a message rejected by it, even if an archived session accepts it,
leaves the warning with the reason. -/
theorem C89_outcome (E : Env) (pos : Nat) (r : Rec) (m : SignalMsg) :
    (∀ x, (decryptWithState E (E.rng pos) (r.heap r.cur) m).1 = .ok x → printed (decryptWithRecordLog E pos r m) = []) ∧
    (∀ e, (decryptWithState E (E.rng pos) (r.heap r.cur) m).1 = .err e → (⟨.warning, [.error e]⟩ : LogCall) ∈ printed (decryptWithRecordLog E pos r m)) := by
  unfold decryptWithRecordLog
  generalize hg : decryptWithState E (E.rng pos) (r.heap r.cur) m = g
  obtain ⟨g, s', d⟩ := g
  constructor
  · intro x hx
    simp only at hx
    subst hx
    have hq := decryptWithStateLog_quiet _ _ _ _ _ _ _ hg
    have : ∀ l : List LogCall, printed l = [] → printed (⟨.debug, [.text "Decrypting ciphertext with record: ", .object]⟩ :: l ++ []) = [] := by
      intro l hl; simpa [printed] using hl
    exact this _ hq
  · intro e he
    simp only at he
    subst he
    simp [printed]

/-! ### An installed logger gets the keys -/

theorem cbcDec_other_iv (C : Crypto) (key : Bytes) (h : ∀ b, C.aesDec key (C.aesEnc key b) = b) (iv iv0 : Block) (p : Block) (l : List Block) :
    ∃ q, cbcDecBlocks C key iv0 (cbcEncBlocks C key iv (p :: l)) = q :: l := by
  refine ⟨xorBlock iv0 (C.aesDec key (C.aesEnc key (xorBlock iv p))), ?_⟩
  rw [cbcEncBlocks, cbcDecBlocks, cbcDec_enc C key h]

/-- CBC with a made-up IV still gives everything after the first block. -/
theorem decryptCbc_other_iv (C : Crypto) (hA : C.AesLaw) (d : Option Block) (key iv iv0 pt ct : Bytes) (hl : iv0.length = 16) (h16 : 16 ≤ pt.length)
    (h : encryptCbc C d (some iv) key pt = .ok ct) : ∃ p, decryptCbc C (some iv0) key ct = .ok p ∧ p.length = pt.length ∧ p.drop 16 = pt.drop 16 := by
  have hk : aesKeyOk key = true := by
    cases hk : aesKeyOk key with
    | true => rfl
    | false =>
      have := pad_length pt
      simp only [encryptCbc] at h
      rw [if_neg (by omega), if_pos (by simp [hk])] at h
      simp at h
  have hlaw : ∀ b, C.aesDec key (C.aesEnc key b) = b := fun b => hA key b ((aesKeyOk_iff key).1 hk)
  rw [encryptCbc_some C d iv key pt hk] at h
  have hpl := pad_length pt
  have hiv : iv.length = 16 := by
    by_cases hiv : iv.length = 16
    · exact hiv
    · rw [cbcCrypt, dif_neg hiv] at h; simp at h
  rw [cbcCrypt_ok _ iv _ _ hiv hpl] at h
  simp only [Res.ok.injEq] at h
  have hbl := toBlocks_length (pt.length / 16 + 1) (pad pt 16)
  have hob := ofBlocks_toBlocks (pt.length / 16 + 1) (pad pt 16) hpl
  generalize toBlocks (pt.length / 16 + 1) (pad pt 16) = bl at *
  cases bl with
  | nil => simp at hbl
  | cons p0 bl =>
  have hctl : ct.length = 16 * (pt.length / 16 + 1) := by rw [← h, ofBlocks_length, cbcEncBlocks_length, hbl]
  obtain ⟨q, hq⟩ := cbcDec_other_iv C key hlaw ⟨iv, hiv⟩ ⟨iv0, hl⟩ p0 bl
  have htb : toBlocks (pt.length / 16 + 1) ct = cbcEncBlocks C key ⟨iv, hiv⟩ (p0 :: bl) := by
    rw [← h]
    have := toBlocks_ofBlocks (cbcEncBlocks C key ⟨iv, hiv⟩ (p0 :: bl))
    rw [cbcEncBlocks_length, hbl] at this
    exact this
  have hdec : cbcCrypt (cbcDecBlocks C key) iv0 ct = .ok (q.bytes ++ ofBlocks bl) := by
    rw [cbcCrypt_ok _ iv0 ct _ hl hctl, htb, hq, ofBlocks_cons]
  rw [ofBlocks_cons] at hob
  have hd16 : ofBlocks bl = (pad pt 16).drop 16 := by
    rw [← hob, List.drop_append_of_le_length (by rw [p0.len]; omega)]
    simp [List.drop_eq_nil_of_le, p0.len]
  have hlen : (q.bytes ++ ofBlocks bl).length = (pad pt 16).length := by
    rw [← hob]; simp [q.len, p0.len]
  have hbn : ofBlocks bl ≠ [] := by
    intro e
    have := congrArg List.length e
    rw [ofBlocks_length] at this
    simp only [List.length_cons] at hbl
    simp at this
    omega
  have hlast : (q.bytes ++ ofBlocks bl).getLast? = (pad pt 16).getLast? := by
    rw [← hob, List.getLast?_append, List.getLast?_append]
    cases hz : (ofBlocks bl).getLast? with
    | none => exact absurd (List.getLast?_eq_none_iff.1 hz) hbn
    | some z => simp
  have hun := unpad_pad pt
  unfold unpad at hun
  cases hz : (pad pt 16).getLast? with
  | none => simp [hz] at hun
  | some z =>
  simp only [hz] at hun
  by_cases hlt : (pad pt 16).length < z.toNat
  · rw [if_pos hlt] at hun; simp at hun
  rw [if_neg hlt] at hun
  simp only [Res.ok.injEq] at hun
  refine ⟨(q.bytes ++ ofBlocks bl).take ((pad pt 16).length - z.toNat), ?_, ?_, ?_⟩
  · simp only [decryptCbc]
    rw [if_neg (by simp [hk]), if_neg (by omega), hdec]
    simp only [Res.bind_ok, unpad, hlast, hz, hlen]
    rw [if_neg hlt]
  · rw [List.length_take, hlen, ← List.length_take, hun]
  · conv_rhs => rw [← hun]
    generalize (pad pt 16).length - z.toNat = n
    rw [← hob, List.drop_take, List.drop_take, List.drop_append_of_le_length (by rw [q.len]; omega), List.drop_append_of_le_length (by rw [p0.len]; omega)]
    simp [List.drop_eq_nil_of_le, q.len, p0.len]

/-- **C89 (what is missing, 1).** A logger installed with `Setup` is handed the cipher key of every message `Encrypt` makes.  With it alone (any made-up IV)
the library's own `DecryptCbc` returns the plaintext but for its first 16 bytes. -/
theorem C89_cipher_key_false (E : Env) (hS : StdSM E.S) (hA : E.C.AesLaw) (s s' : SState) (pt : Bytes) (cm : CipherMsg) (hv : s.version = currentVersion)
    (h16 : 16 ≤ pt.length) (hpt : pt.length < 2 ^ 63) (h : encryptState E s pt = (.ok cm, s')) :
    ∃ key body, (⟨.debug, [.text "Using cipherKey: ", .bytes key]⟩ : LogCall) ∈ encryptLog E s pt ∧ cm.inner.struct.cipherText = some body ∧
      ∀ iv0 : Bytes, iv0.length = 16 → ∃ p, decryptCbc E.C (some iv0) key body = .ok p ∧ p.length = pt.length ∧ p.drop 16 = pt.drop 16 := by
  obtain ⟨sc, body, h1, h2, -, -, -, -, -, h8, -⟩ := encryptState_inner hS hv hpt h
  refine ⟨(sc.chainKey.msgKeys E.C).cipherKey, body, ?_, h8, ?_⟩
  · unfold encryptLog; rw [h1]; simp
  · intro iv0 hl
    exact decryptCbc_other_iv E.C hA none _ _ iv0 pt body hl h16 h2

/-- The same message with another MAC. -/
def SignalMsg.withMac (m : SignalMsg) (mac : Bytes) : SignalMsg := { m with struct := { m.struct with mac := some mac } }

theorem newSignalMessageFromStruct_struct {st : SMStruct} {m : SignalMsg} (h : newSignalMessageFromStruct st = .ok m) : m.struct = st := by
  unfold newSignalMessageFromStruct at h
  cases h1 : checkVersion st.version with
  | err e => simp [h1] at h
  | panic => simp [h1] at h
  | ok u =>
    simp only [h1, Res.bind_ok] at h
    split at h
    · rename_i rk _ _
      cases h2 : decodePoint rk with
      | err e => simp [h2] at h
      | panic => simp [h2] at h
      | ok k => simp [h2] at h; rw [← h]
    · simp at h

theorem newSignalMessageFromStruct_mac (st : SMStruct) (mac : Bytes) :
    newSignalMessageFromStruct { st with mac := some mac } = (newSignalMessageFromStruct st).map fun m => m.withMac mac := by
  unfold newSignalMessageFromStruct
  dsimp only
  cases checkVersion st.version with
  | err e => rfl
  | panic => rfl
  | ok u =>
    simp only [Res.bind_ok]
    split
    · rename_i rk _ _
      cases decodePoint rk <;> rfl
    · rfl

theorem decryptBody_not_badMac (C : Crypto) (mk : MsgKeys) (b : Bytes) : decryptBody C mk b ≠ .err .badMac := by
  unfold decryptBody decryptCbc
  split
  · simp
  · split
    · simp
    · dsimp only
      unfold cbcCrypt
      split
      · split
        · simp only [Res.bind_ok, unpad]
          split
          · simp
          · split <;> simp
        · simp
      · simp

theorem skipLoop_no_err (C : Crypto) (eph : Key32) (n : UInt32) (fuel : Nat) (s : SState) (ck : ChainKey) (e : Err) : (skipLoop C eph n fuel s ck).1 ≠ .err e := by
  induction fuel generalizing s ck with
  | zero => simp [skipLoop]
  | succ f ih =>
    rw [skipLoop]
    split
    · split
      · exact ih _ _
      · rename_i h; unfold SState.setMessageKeys at h; split at h <;> simp at h
      · simp
    · simp

theorem getOrCreateMessageKeys_not_badMac (C : Crypto) (s : SState) (eph : Key32) (ck : ChainKey) (n : UInt32) :
    (getOrCreateMessageKeys C s eph ck n).1 ≠ .err .badMac := by
  unfold getOrCreateMessageKeys
  split
  · split
    · unfold SState.removeMessageKeys
      split
      · simp
      · dsimp only
        split <;> simp
    · simp
    · rename_i h; unfold SState.hasMessageKeys at h; split at h <;> simp at h
    · simp
  · split
    · simp
    · split
      · split
        · simp
        · rename_i h; unfold SState.setReceiverChainKey at h; split at h <;> simp at h
        · simp
      · rename_i h
        exact absurd (congrArg Prod.fst h) (skipLoop_no_err _ _ _ _ _ _ _)
      · simp

theorem getOrCreateChainKey_not_badMac (C : Crypto) (d : Option Key32) (s : SState) (eph : Key32) : (getOrCreateChainKey C d s eph).1 ≠ .err .badMac := by
  rcases getOrCreateChainKey_cases C d s eph with ⟨c, -, h⟩ | ⟨-, root, sc, p, r, -, -, -, -, h⟩ | ⟨-, h, -⟩ | ⟨-, h⟩ <;> rw [h] <;> simp

/-- The MAC computed for comparison is what `VerifyMac` hands to the logger, and is accepted. -/
theorem verifyMac_logged (C : Crypto) (S : Ser SMStruct) (hS : StdSM S) (m : SignalMsg) (v : Int) (a b : Option Key32) (k : Bytes)
    (h : m.verifyMac C S v a b k = .err .badMac) :
    ∃ mac, (⟨.debug, [.text "  Our MAC: ", .bytes mac]⟩ : LogCall) ∈ m.verifyMacLog C S v a b k ∧ (m.withMac mac).verifyMac C S v a b k = .ok () := by
  unfold SignalMsg.verifyMac at h
  unfold SignalMsg.verifyMacLog
  cases h1 : newSignalMessageFromStruct m.struct with
  | err e =>
    simp only [h1, Res.bind_err, Res.err.injEq] at h
    subst h
    exfalso
    unfold newSignalMessageFromStruct checkVersion at h1
    revert h1
    split
    · simp
    · split
      · simp
      · simp only [Res.bind_ok]
        split
        · rename_i rk _ _
          unfold decodePoint
          split
          · simp
          · split <;> simp
        · simp
  | panic => simp [h1] at h
  | ok m' =>
    obtain ⟨body, hb⟩ := hS.ser_ok { m'.struct with mac := none, version := 0 }
    simp only [h1, hb, Res.bind_ok] at h ⊢
    cases h3 : getMac C v a b k (itoa m.struct.version ++ body) with
    | panic => simp [h3] at h
    | err e =>
      simp only [h3, Res.bind_err, Res.err.injEq] at h
      subst h
      exfalso
      unfold getMac trim at h3
      split at h3
      · split at h3
        · split at h3 <;> simp at h3
        · simp at h3
      · split at h3 <;> simp at h3
    | ok ours =>
      refine ⟨ours, by simp, ?_⟩
      unfold SignalMsg.verifyMac
      have h4 : newSignalMessageFromStruct (m.withMac ours).struct = .ok (m'.withMac ours) := by
        show newSignalMessageFromStruct { m.struct with mac := some ours } = _
        rw [newSignalMessageFromStruct_mac, h1]
        rfl
      rw [h4]
      simp only [Res.bind_ok]
      have h5 : S.ser { (m'.withMac ours).struct with mac := none, version := 0 } = .ok body := hb
      rw [h5]
      have h6 : (m.withMac ours).struct.version = m.struct.version := rfl
      simp only [Res.bind_ok, h6, h3]
      exact if_pos rfl

/-- **C89 (what is missing, 2).** When `Decrypt` rejects a forged message because its MAC is wrong, an installed logger is handed the MAC that would have
been accepted: with it the same forgery, given to the same session, passes the MAC check. -/
theorem C89_mac_false (E : Env) (hS : StdSM E.S) (draw : Option Key32) (s s' : SState) (m : SignalMsg) (d : Bool)
    (h : decryptWithState E draw s m = (.err .badMac, s', d)) :
    ∃ mac, (⟨.debug, [.text "  Our MAC: ", .bytes mac]⟩ : LogCall) ∈ decryptWithStateLog E draw s m ∧
      (decryptWithState E draw s (m.withMac mac)).1 ≠ .err .badMac := by
  have hv' : ∀ mac, (m.withMac mac).struct.version = m.struct.version := fun _ => rfl
  have hr' : ∀ mac, (m.withMac mac).senderRatchetKey = m.senderRatchetKey := fun _ => rfl
  have hc' : ∀ mac, (m.withMac mac).struct.counter = m.struct.counter := fun _ => rfl
  have hb' : ∀ mac, (m.withMac mac).struct.cipherText = m.struct.cipherText := fun _ => rfl
  unfold decryptWithState at h ⊢
  unfold decryptWithStateLog
  simp only [hv', hr', hc', hb']
  cases hsc : s.senderChain with
  | none => simp [hsc] at h
  | some sc =>
    simp only [hsc] at h ⊢
    by_cases hv : m.struct.version ≠ s.version
    · rw [if_pos hv] at h; simp at h
    · simp only [if_neg hv] at h ⊢
      have hg1 := getOrCreateChainKey_not_badMac E.C draw s m.senderRatchetKey
      generalize getOrCreateChainKey E.C draw s m.senderRatchetKey = g at h hg1 ⊢
      obtain ⟨g, s1, d1⟩ := g
      cases g with
      | err e => simp only [Prod.mk.injEq, Res.err.injEq] at h; exact absurd (congrArg Res.err h.1) hg1
      | panic => simp at h
      | ok ck =>
        simp only at h ⊢
        have hg2 := getOrCreateMessageKeys_not_badMac E.C s1 m.senderRatchetKey ck m.struct.counter
        generalize getOrCreateMessageKeys E.C s1 m.senderRatchetKey ck m.struct.counter = g at h hg2 ⊢
        obtain ⟨g, s2⟩ := g
        cases g with
        | err e => simp only [Prod.mk.injEq, Res.err.injEq] at h; exact absurd (congrArg Res.err h.1) hg2
        | panic => simp at h
        | ok mk =>
          simp only at h ⊢
          cases hm : m.verifyMac E.C E.S m.struct.version s2.remoteIdentity s2.localIdentity mk.macKey with
          | panic => simp [hm] at h
          | ok u =>
            cases u
            simp only [hm] at h
            have := decryptBody_not_badMac E.C mk (m.struct.cipherText.getD [])
            cases hd : decryptBody E.C mk (m.struct.cipherText.getD []) with
            | err e => simp only [hd, Prod.mk.injEq, Res.err.injEq] at h; exact absurd (hd.trans (congrArg Res.err h.1)) this
            | panic => simp [hd] at h
            | ok p => simp [hd] at h
          | err e =>
            simp only [hm, Prod.mk.injEq, Res.err.injEq] at h
            obtain ⟨rfl, -, -⟩ := h
            obtain ⟨mac, hl, hok⟩ := verifyMac_logged E.C E.S hS m _ _ _ _ hm
            refine ⟨mac, ?_, ?_⟩
            · simp [hl]
            · rw [hok]
              simp only
              have := decryptBody_not_badMac E.C mk (m.struct.cipherText.getD [])
              cases hd : decryptBody E.C mk (m.struct.cipherText.getD []) with
              | err e => intro he; exact this (hd.trans (by simpa using he))
              | panic => simp
              | ok p => simp

/-- **C89 (what is missing, 3).** Serialising a session state hands an installed logger the whole state: whoever reads the log can load it. -/
theorem C89_state_false (s : SState) (hv : InInt64 s.version) (b : Bytes) (h : s.serialize = .ok b) :
    ∃ b', (⟨.debug, [.text "Serialize result: ", .bytes b']⟩ : LogCall) ∈ s.serializeLog ∧ SState.ofBytes b' = .ok s := by
  refine ⟨b, by simp [SState.serializeLog, h], ?_⟩
  exact C86_session_state s hv b b h (C86_own_text.2.1 s b h)

/-- **C89 (what is missing, 4).** Serialising a sender key distribution message (protobuf) hands an installed logger its bytes: from the log one reads the
group's chain key and can process the invitation as a member does. -/
theorem C89_distribution_false (id it : UInt32) (ck : Bytes) (sk : Key32) (hck : ck.length < 2 ^ 64) :
    ∃ b, (⟨.debug, [.text "Serialize result: ", .bytes b]⟩ : LogCall) ∈ (newSKDM id it ck sk).serializeLog protoSKD ∧
      newSKDMFromBytes protoSKD b = .ok { newSKDM id it ck sk with version := 3 } := by
  obtain ⟨b, h1, h2⟩ := C26_distribution_message protoSKD (.inl rfl) id it ck sk hck
  exact ⟨b, by simp [SKDMsg.serializeLog, h1], h2⟩

/-! Concrete cases (toy primitives): a message of 20 bytes is encrypted, its cipher key is logged; a forgery is rejected and its right MAC is logged. -/
section
open Toy
set_option maxRecDepth 100000
private def twenty : Bytes := List.replicate 20 65
example : aliceInit.version = currentVersion ∧ (encryptState aliceEnv aliceInit twenty).1.isOk = true ∧
    (encryptLog aliceEnv aliceInit twenty).map (·.level) = [.debug, .debug] := by decide +kernel
example : (decryptWithState aliceEnv none aliceInit (early2.withMac [1, 2, 3])).1.map (·.1) = .err .badMac ∧
    printed (decryptWithStateLog aliceEnv none aliceInit (early2.withMac [1, 2, 3])) =
      [⟨.error, [.text "Unable to verify ciphertext mac: ", .error .badMac]⟩] ∧
    (⟨.debug, [.text "  Our MAC: ", .bytes (early2.struct.mac.getD [])]⟩ : LogCall) ∈ decryptWithStateLog aliceEnv none aliceInit (early2.withMac [1, 2, 3]) := by
  decide +kernel
end

end Verif
