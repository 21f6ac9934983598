import Verif.Proofs.Groups
/-
C23 (sender key records round-trip), C29 (group messages decrypt to what was sent), C30 (no replay, bounded state),
C31 (signature checked before any change), C32 (consecutive iterations), C33 (a new distribution message takes effect).
-/
set_option linter.unusedSimpArgs false
namespace Verif

/-! ### C31 -/

/-- **C31.** Whatever is stored and whatever message arrives: unless `Decrypt` succeeds the store is exactly as before; and if it
succeeds, the stored record has a state with the message's key id, and the message's signature verifies over its key id,
iteration and ciphertext under that state's signing key.  So a message with an unknown key id, or whose signature does not
verify, is rejected and changes nothing. -/
theorem C31_signature_first (C : Crypto) (S : Ser SKStruct) (st : GStore) (n : SenderKeyName) (m : SenderKeyMsg) :
    ((st.decrypt C S n m).1.isOk = false → (st.decrypt C S n m).2 = st) ∧
    ((st.decrypt C S n m).1.isOk = true → ∃ r s content, st.load n = .ok (some r) ∧
      r.find? (fun s => s.keyId == m.keyId) = some s ∧
      S.ser { id := m.keyId, iteration := m.iteration, cipherText := m.ciphertext, version := m.version, signature := none } = .ok content ∧
      C.verify s.signing.pub content m.sig = true) := by
  cases hl : st.load n with
  | err e => simp [GStore.decrypt, hl, Res.isOk]
  | panic => simp [GStore.decrypt, hl, Res.isOk]
  | ok o =>
    cases o with
    | none => simp [GStore.decrypt, hl, groupDecrypt, Res.isOk]
    | some r =>
      rcases GStore.decrypt_cases C S hl m with ⟨h1, h2⟩ | ⟨s, body, mk, s', pt, h1, h2, h3, h4, h5, h6, h7, h8⟩
      · exact ⟨fun _ => h1, fun h => by rw [h2] at h; simp at h⟩
      · refine ⟨fun h => by rw [h6] at h; simp [Res.isOk] at h, fun _ => ⟨r, s, body, rfl, h1, h2, h3⟩⟩

/-- **C31 (rejections).** A message naming a key id the record does not have is refused with an error, and so is one whose signature
does not verify under the signing key of the state with its key id; the store is unchanged. -/
theorem C31_rejects (C : Crypto) (S : Ser SKStruct) (st : GStore) (n : SenderKeyName) (m : SenderKeyMsg) (r : GRec)
    (hl : st.load n = .ok (some r)) (hr : r ≠ []) :
    ((∀ s ∈ r, s.keyId ≠ m.keyId) → st.decrypt C S n m = (.err .noSenderKeyForId, st)) ∧
    (∀ s content, r.find? (fun s => s.keyId == m.keyId) = some s → m.serialize S = .ok content →
      C.verify s.signing.pub content m.sig = false → st.decrypt C S n m = (.err .signatureFailed, st)) := by
  cases r with
  | nil => exact absurd rfl hr
  | cons s0 rest =>
    constructor
    · intro h
      have : (s0 :: rest).find? (fun s => s.keyId == m.keyId) = none := by
        rw [List.find?_eq_none]; intro s hs; simpa using h s hs
      simp [GStore.decrypt, hl, groupDecrypt, this]
    · intro s content hf hs hv
      simp [GStore.decrypt, hl, groupDecrypt, hf, hs, hv]

/-! ### C32 -/

/-- Successive group Encrypt calls (each with the randomness its signature uses) against one store. -/
def groupSend (C : Crypto) (S : Ser SKStruct) (n : SenderKeyName) : GStore → List (Bytes × Arr 64) → List (Res SenderKeyMsg) × GStore
  | st, [] => ([], st)
  | st, (pt, rand) :: xs =>
    let x := st.encrypt C S rand n pt
    let rest := groupSend C S n x.2 xs
    (x.1 :: rest.1, rest.2)

/-- One Encrypt call. -/
theorem GStore.encrypt_ok (C : Crypto) (S : Ser SKStruct) (hSer : StdSK S) (st : GStore) (n : SenderKeyName) (s : SKState) (rest : GRec) (k : Key32)
    (hl : st.load n = .ok (some (s :: rest))) (hk : s.signing.priv = some k) (pt : Bytes) (rand : Arr 64) :
    ∃ m body content, (st.encrypt C S rand n pt).1 = .ok m ∧ m.keyId = s.keyId ∧ m.iteration = s.chain.iteration ∧
      m.ciphertext = some body ∧ body.length = 16 * (pt.length / 16 + 1) ∧
      encryptCbc C none (some (groupKey C s.chain).iv) (groupKey C s.chain).cipherKey pt = .ok body ∧
      m.serialize S = .ok content ∧ m.sig = C.sign k content rand ∧ m.version = UInt32.ofNat currentVersion ∧
      m.signature = some (C.sign k content rand).bytes ∧
      (st.encrypt C S rand n pt).2.load n = .ok (some ({ s with chain := s.chain.next C } :: rest)) := by
  have hkl := groupKey_cipherKey C s.chain
  have hiv := groupKey_iv C s.chain
  obtain ⟨body, hb, hbl⟩ : ∃ body, encryptCbc C none (some (groupKey C s.chain).iv) (groupKey C s.chain).cipherKey pt = .ok body ∧
      body.length = 16 * (pt.length / 16 + 1) := by
    rw [encryptCbc_some C none _ _ _ ((aesKeyOk_iff _).2 (.inr (.inr hkl)))]
    refine ⟨_, cbcCrypt_ok _ _ _ _ hiv (pad_length pt), ?_⟩
    rw [ofBlocks_length, cbcEncBlocks_length, toBlocks_length]
  obtain ⟨content, hc⟩ : ∃ c, (⟨UInt32.ofNat currentVersion, s.keyId, s.chain.iteration, some body, none⟩ : SenderKeyMsg).serialize S
      = .ok c := hSer.ser_ok _
  let m : SenderKeyMsg := ⟨UInt32.ofNat currentVersion, s.keyId, s.chain.iteration, some body, some (C.sign k content rand).bytes⟩
  have he : groupEncrypt C S rand (some (s :: rest)) pt = (.ok m, some ({ s with chain := s.chain.next C } :: rest), true) := by
    simp [groupEncrypt, msgKey_eq, hb, newSenderKeyMessage, hk, hc, m]
  refine ⟨m, body, content, by simp [GStore.encrypt, hl, he], rfl, rfl, rfl, hbl, hb, hc, ?_, rfl, rfl, ?_⟩
  · simp [m, SenderKeyMsg.sig]
  · simp only [GStore.encrypt, hl, he]
    apply GStore.load_save_loaded
    intro x hx
    rcases List.mem_cons.1 hx with rfl | hx
    · exact ⟨k, hk⟩
    · exact GStore.loaded hl x (List.mem_cons_of_mem _ hx)

/-- **C32.** With either serializer, any number of consecutive group Encrypt calls all succeed; the i-th message carries the record's key id and the
iteration `iteration + i`, its ciphertext is the plaintext encrypted with the message key `i` steps along the chain, it is
signed with the record's signing key over its own content, and afterwards the stored chain has advanced one step per call. -/
theorem C32_consecutive (C : Crypto) (S : Ser SKStruct) (hSer : StdSK S) (n : SenderKeyName) (st : GStore) (s : SKState) (rest : GRec) (k : Key32)
    (hl : st.load n = .ok (some (s :: rest))) (hk : s.signing.priv = some k)
    (xs : List (Bytes × Arr 64)) (hxs : ∀ x ∈ xs, x.1.length < 2 ^ 63) :
    (groupSend C S n st xs).1.length = xs.length ∧
    (∀ i x, xs[i]? = some x → ∃ m body content, (groupSend C S n st xs).1[i]? = some (.ok m) ∧
      m.keyId = s.keyId ∧ m.iteration = s.chain.iteration + UInt32.ofNat i ∧ m.ciphertext = some body ∧
      encryptCbc C none (some (groupKey C (s.chain.iter C i)).iv) (groupKey C (s.chain.iter C i)).cipherKey x.1 = .ok body ∧
      m.serialize S = .ok content ∧ m.sig = C.sign k content x.2 ∧ m.version = UInt32.ofNat currentVersion ∧
      m.signature = some (C.sign k content x.2).bytes ∧ body.length < 2 ^ 64) ∧
    (groupSend C S n st xs).2.load n = .ok (some ({ s with chain := s.chain.iter C xs.length } :: rest)) := by
  induction xs generalizing st s with
  | nil => exact ⟨rfl, by simp, hl⟩
  | cons x xs ih =>
    obtain ⟨pt, rand⟩ := x
    have hpt : pt.length < 2 ^ 63 := hxs (pt, rand) List.mem_cons_self
    obtain ⟨m, body, content, h1, h2, h3, h4, h5, h6, h7, h8, h9, h10, h11⟩ := GStore.encrypt_ok C S hSer st n s rest k hl hk pt rand
    obtain ⟨i1, i2, i3⟩ := ih _ _ h11 hk (fun p hp => hxs p (List.mem_cons_of_mem _ hp))
    refine ⟨by simp [groupSend, i1], ?_, ?_⟩
    · intro i y hy
      cases i with
      | zero =>
        simp only [List.getElem?_cons_zero, Option.some.injEq] at hy
        subst hy
        exact ⟨m, body, content, by simp [groupSend, h1], h2, by rw [h3]; simp, h4, h6, h7, h8, h9, h10, by omega⟩
      | succ i =>
        simp only [List.getElem?_cons_succ] at hy
        obtain ⟨m', body', content', j1, j2, j3, j4, j5, j6, j7, j8, j9, j10⟩ := i2 i y hy
        refine ⟨m', body', content', by simpa [groupSend] using j1, j2, ?_, j4, ?_, j6, j7, j8, j9, j10⟩
        · rw [j3]
          simp only [snext_iteration]
          apply UInt32.toNat_inj.1
          simp only [UInt32.toNat_add, UInt32.toNat_ofNat', UInt32.toNat_one]
          omega
        · rw [SChainKey.iter_succ]; exact j5
    · show (groupSend C S n (st.encrypt C S rand n pt).2 xs).2.load n = _
      rw [i3]
      simp only [List.length_cons, SChainKey.iter_succ]

/-- **C32 (no reuse).** Two different messages among fewer than 2^32 consecutive ones have different iterations. -/
theorem C32_no_reuse (C : Crypto) (S : Ser SKStruct) (hSer : StdSK S) (n : SenderKeyName) (st : GStore) (s : SKState) (rest : GRec) (k : Key32)
    (hl : st.load n = .ok (some (s :: rest))) (hk : s.signing.priv = some k)
    (xs : List (Bytes × Arr 64)) (hxs : ∀ x ∈ xs, x.1.length < 2 ^ 63) (hn : xs.length < 2 ^ 32) (i j : Nat) (hij : i < j)
    (m m' : SenderKeyMsg) (hi : (groupSend C S n st xs).1[i]? = some (.ok m)) (hj : (groupSend C S n st xs).1[j]? = some (.ok m')) :
    m.iteration ≠ m'.iteration := by
  obtain ⟨h1, h2, -⟩ := C32_consecutive C S hSer n st s rest k hl hk xs hxs
  have hjl : j < xs.length := by rw [← h1]; exact (List.getElem?_eq_some_iff.1 hj).1
  obtain ⟨c1, _, _, e1, -, e2, -⟩ := h2 i xs[i] (List.getElem?_eq_getElem (by omega))
  obtain ⟨c2, _, _, f1, -, f2, -⟩ := h2 j xs[j] (List.getElem?_eq_getElem (by omega))
  rw [hi] at e1; cases e1
  rw [hj] at f1; cases f1
  rw [e2, f2]
  intro he
  have := congrArg UInt32.toNat he
  simp only [UInt32.toNat_add, UInt32.toNat_ofNat'] at this
  have := s.chain.iteration.toNat_lt
  omega

/-! ### C29 -/

/-- Receiving raw bytes as a group message: parse, then `Decrypt`. -/
def recvBytes (C : Crypto) (S : Ser SKStruct) (st : GStore) (n : SenderKeyName) (b : Bytes) : Res Bytes × GStore :=
  match newSenderKeyMessageFromBytes S b with
  | .ok m => st.decrypt C S n m
  | .err e => (.err e, st)
  | .panic => (.panic, st)

/-- What arrives at the receiver: the j-th message sent, or other bytes. -/
inductive GEvent where
  | deliver (j : Nat)
  | other (b : Bytes)

/-- The bytes of an event. -/
def GEvent.bytes (S : Ser SKStruct) (sent : List (Res SenderKeyMsg)) : GEvent → Bytes
  | .deliver j =>
    match sent[j]? with
    | some (.ok m) => match m.signedSerialize S with
      | .ok b => b
      | _ => []
    | _ => []
  | .other b => b

/-- The receiver's results for a list of events. -/
def groupReceive (C : Crypto) (S : Ser SKStruct) (n : SenderKeyName) (sent : List (Res SenderKeyMsg)) : GStore → List GEvent → List (Res Bytes) × GStore
  | st, [] => ([], st)
  | st, e :: es =>
    let x := recvBytes C S st n (e.bytes S sent)
    let rest := groupReceive C S n sent x.2 es
    (x.1 :: rest.1, rest.2)

/-- The specification of the results: `w` is the receive window, `base` the iteration of message 0.  A delivered message that the
window accepts yields its plaintext; one it does not accept yields an error.  Nothing is said about other bytes. -/
def GroupOutcome (plaintexts : List Bytes) (base : Nat) : Window → List GEvent → List (Res Bytes) → Prop
  | _, [], [] => True
  | w, .other _ :: es, _ :: rs => GroupOutcome plaintexts base w es rs
  | w, .deliver j :: es, r :: rs =>
    match Window.accept groupLimits w (base + j) with
    | none => (r = .err .oldCounter ∨ r = .err .tooFarFuture) ∧ GroupOutcome plaintexts base w es rs
    | some (_, w') => (∃ pt, plaintexts[j]? = some pt ∧ r = .ok pt) ∧ GroupOutcome plaintexts base w' es rs
  | _, _, _ => False

/-- The bytes are no message of key id `id` with a valid signature under `pub`. -/
def NotSignedBy (C : Crypto) (S : Ser SKStruct) (id : UInt32) (pub : Key32) (b : Bytes) : Prop :=
  ∀ m content, newSenderKeyMessageFromBytes S b = .ok m → m.keyId = id → m.serialize S = .ok content →
    C.verify pub content m.sig = false

/-- The sender's store either has no (or an empty) record for the name, or one whose first state owns its signing key. -/
def OwnsName (C : Crypto) (st : GStore) (n : SenderKeyName) : Prop :=
  st.load n = .ok none ∨ st.load n = .ok (some []) ∨
    ∃ s rest k, st.load n = .ok (some (s :: rest)) ∧ s.signing = ⟨C.basePub k, some k⟩ ∧ IsClamped k

/-- After `Create` the store holds an owned state, and the distribution message describes it. -/
theorem GStore.create_ready {C : Crypto} {d : GroupDraws} {st st' : GStore} {n : SenderKeyName} {skdm : SKDMsg}
    (hown : OwnsName C st n) (h : st.create C d n = (.ok skdm, st')) :
    ∃ s rest k, st'.load n = .ok (some (s :: rest)) ∧ s.signing = ⟨C.basePub k, some k⟩ ∧
      skdm = newSKDM s.keyId s.chain.iteration s.chain.key s.signing.pub ∧ IsClamped k := by
  have hfresh : ∀ o, st.load n = .ok o → (o = none ∨ o = some []) → ∃ s rest k, st'.load n = .ok (some (s :: rest)) ∧ s.signing = ⟨C.basePub k, some k⟩ ∧
      skdm = newSKDM s.keyId s.chain.iteration s.chain.key s.signing.pub ∧ IsClamped k := by
    intro o ho hon
    unfold GStore.create at h
    rw [ho] at h
    have hg : groupCreate C d o = match generateKeyPair C d.signing with
        | .err e => (.err e, none)
        | .panic => (.panic, none)
        | .ok kp => (.ok (newSKDM d.id 0 d.chain.bytes kp.pub), some (GRec.setState d.id 0 d.chain.bytes kp)) := by
      rcases hon with rfl | rfl <;> rfl
    simp only [hg] at h
    cases hd : d.signing with
    | none => simp [generateKeyPair, hd] at h
    | some x =>
      simp only [generateKeyPair, hd, Prod.mk.injEq, Res.ok.injEq] at h
      obtain ⟨rfl, rfl⟩ := h
      refine ⟨⟨[], d.id, ⟨0, d.chain.bytes⟩, ⟨C.basePub (clamp x), some (clamp x)⟩⟩, [], clamp x, ?_, rfl, rfl, clamp_isClamped x⟩
      exact GStore.load_save_loaded _ _ _ (by intro s hs; simp [GRec.setState] at hs; subst hs; exact ⟨_, rfl⟩)
  rcases hown with h0 | h0 | ⟨s, rest, k, h0, hs, hk⟩
  · exact hfresh _ h0 (.inl rfl)
  · exact hfresh _ h0 (.inr rfl)
  · unfold GStore.create at h
    rw [h0] at h
    simp only [groupCreate, Prod.mk.injEq, Res.ok.injEq] at h
    obtain ⟨rfl, rfl⟩ := h
    exact ⟨s, rest, k, h0, hs, rfl, hk⟩

theorem decrypt_encryptCbc (C : Crypto) (hA : C.AesLaw) (ck : SChainKey) (pt body : Bytes)
    (h : encryptCbc C none (some (groupKey C ck).iv) (groupKey C ck).cipherKey pt = .ok body) :
    decryptCbc C (some (groupKey C ck).iv) (groupKey C ck).cipherKey body = .ok pt := by
  have hk := (aesKeyOk_iff _).2 (.inr (.inr (groupKey_cipherKey C ck)))
  rw [encryptCbc_some C none _ _ _ hk] at h
  obtain ⟨ct, e1, e2, e3⟩ := cbc_roundtrip C hA (groupKey C ck).cipherKey (groupKey C ck).iv (pad pt 16) _ hk (groupKey_iv C ck) (pad_length pt)
  rw [e1] at h
  cases h
  unfold decryptCbc
  rw [if_neg (by simp [hk]), if_neg (by rw [e2, pad_length]; omega)]
  simp [e3, unpad_pad]

/-- Decrypting a message that names a state and verifies under it. -/
theorem GStore.decrypt_verified (C : Crypto) (S : Ser SKStruct) {st : GStore} {n : SenderKeyName} {r : GRec} {s : SKState} {m : SenderKeyMsg}
    {content : Bytes} (hl : st.load n = .ok (some r)) (hf : r.find? (fun s => s.keyId == m.keyId) = some s)
    (hs : m.serialize S = .ok content) (hv : C.verify s.signing.pub content m.sig = true) :
    (∀ e s', getSenderKey C s m.iteration = (.err e, s') → st.decrypt C S n m = (.err e, st)) ∧
    (∀ mk s' pt, getSenderKey C s m.iteration = (.ok (some mk), s') →
      decryptCbc C (some mk.iv) mk.cipherKey (m.ciphertext.getD []) = .ok pt →
      st.decrypt C S n m = (.ok pt, st.save n (modifyFirst (fun s => s.keyId == m.keyId) (fun _ => s') r)) ∧
      (st.decrypt C S n m).2.load n = .ok (some (modifyFirst (fun s => s.keyId == m.keyId) (fun _ => s') r))) := by
  have hne : ∃ s0 rest, r = s0 :: rest := by
    cases r with
    | nil => simp at hf
    | cons a l => exact ⟨a, l, rfl⟩
  obtain ⟨s0, rest, rfl⟩ := hne
  constructor
  · intro e s' hg
    simp [GStore.decrypt, hl, groupDecrypt, hf, hs, hv, hg]
  · intro mk s' pt hg hd
    have he : st.decrypt C S n m = (.ok pt, st.save n (modifyFirst (fun s => s.keyId == m.keyId) (fun _ => s') (s0 :: rest))) := by
      simp [GStore.decrypt, hl, groupDecrypt, hf, hs, hv, hg, hd]
    refine ⟨he, ?_⟩
    rw [he]
    apply GStore.load_save_loaded
    have := loaded_modify (GStore.loaded hl) (C := C) (p := fun s => s.keyId == m.keyId) (List.mem_of_find?_eq_some hf) m.iteration
    rw [hg] at this
    exact this

/-- After processing a distribution message whose key id is new, the record's state for that id is the distributed one. -/
theorem GStore.process_fresh (st : GStore) (n : SenderKeyName) (m : SKDMsg) (hl : st.load n = .ok none ∨ ∃ r, st.load n = .ok (some r) ∧
    ∀ s ∈ r, s.keyId ≠ m.id) :
    ∃ r s, (st.process n m).2.load n = .ok (some r) ∧ r.find? (fun s => s.keyId == m.id) = some s ∧
      s.signing.pub = m.signatureKey ∧ s.keys = [] ∧ s.chain = ⟨m.iteration, m.chainKey.getD []⟩ ∧ s.keyId = m.id := by
  have key : ∀ r : GRec, (∀ s ∈ r, s.keyId ≠ m.id) →
      ∃ s, ((GRec.addState r m.id m.iteration (m.chainKey.getD []) m.signatureKey).map SKState.reloaded).find? (fun s => s.keyId == m.id) = some s ∧
      s.signing.pub = m.signatureKey ∧ s.keys = [] ∧ s.chain = ⟨m.iteration, m.chainKey.getD []⟩ ∧ s.keyId = m.id := by
    intro r hr
    have hadd : ∃ r0 : GRec, (∀ s ∈ r0, s.keyId ≠ m.id) ∧ GRec.addState r m.id m.iteration (m.chainKey.getD []) m.signatureKey =
        r0 ++ [⟨[], m.id, ⟨m.iteration, m.chainKey.getD []⟩, ⟨m.signatureKey, none⟩⟩] := by
      simp only [GRec.addState]
      split
      · rename_i hlen
        cases r with
        | nil => have e : groupMaxMessageKeys = 2000 := rfl
                 simp only [List.nil_append, List.length_singleton] at hlen; omega
        | cons a l => exact ⟨l, fun s hs => hr s (List.mem_cons_of_mem _ hs), rfl⟩
      · exact ⟨r, hr, rfl⟩
    obtain ⟨r0, h0, ha⟩ := hadd
    rw [ha]
    refine ⟨SKState.reloaded ⟨[], m.id, ⟨m.iteration, m.chainKey.getD []⟩, ⟨m.signatureKey, none⟩⟩, ?_, rfl, rfl, rfl, rfl⟩
    rw [List.map_append, List.find?_append]
    have : (r0.map SKState.reloaded).find? (fun s => s.keyId == m.id) = none := by
      rw [List.find?_eq_none]
      intro x hx
      obtain ⟨y, hy, rfl⟩ := List.mem_map.1 hx
      simpa [SKState.reloaded] using h0 y hy
    rw [this]
    simp [SKState.reloaded]
  rcases hl with hl | ⟨r, hl, hr⟩
  · obtain ⟨s, h⟩ := key [] (by simp)
    refine ⟨_, s, ?_, h⟩
    simp only [GStore.process, hl]
    exact GStore.load_save _ _ _
  · obtain ⟨s, h⟩ := key r hr
    refine ⟨_, s, ?_, h⟩
    simp only [GStore.process, hl]
    exact GStore.load_save _ _ _

/-- Receiving bytes that are not signed by the state's key leaves that state alone. -/
theorem recvBytes_other {C : Crypto} {S : Ser SKStruct} {st : GStore} {n : SenderKeyName} {r : GRec} {s : SKState} {id : UInt32} {b : Bytes}
    (hl : st.load n = .ok (some r)) (hf : r.find? (fun s => s.keyId == id) = some s) (hb : NotSignedBy C S id s.signing.pub b) :
    ∃ r', (recvBytes C S st n b).2.load n = .ok (some r') ∧ r'.find? (fun s => s.keyId == id) = some s := by
  unfold recvBytes
  cases hp : newSenderKeyMessageFromBytes S b with
  | err e => exact ⟨r, hl, hf⟩
  | panic => exact ⟨r, hl, hf⟩
  | ok m =>
    simp only
    rcases GStore.decrypt_cases C S hl m with ⟨h1, -⟩ | ⟨s1, body, mk, s', pt, h1, h2, h3, h4, -, -, -, h8⟩
    · rw [h1]; exact ⟨r, hl, hf⟩
    · refine ⟨_, h8, ?_⟩
      by_cases hid : m.keyId = id
      · rw [hid] at h1
        rw [hf] at h1
        cases h1
        have := hb m body hp hid h2
        rw [this] at h3
        simp at h3
      · rw [find?_modifyFirst_ne, hf]
        intro a ha
        have ha : a.keyId = m.keyId := by simpa using ha
        have hs' : s'.keyId = m.keyId := by
          have := (getSenderKey_fixed C s1 m.iteration).1
          rw [h4] at this
          rw [this]
          simpa using List.find?_some h1
        simp [ha, hs', hid]

/-- Deliveries against a receiver's store. -/
theorem group_delivery (C : Crypto) (S : Ser SKStruct) (hSer : StdSK S) (hA : C.AesLaw) (hS : C.SigLaw) (nB : SenderKeyName) (ck0 : SChainKey) (id : UInt32) (k : Key32) (hk : IsClamped k)
    (sends : List (Bytes × Arr 64)) (sent : List (Res SenderKeyMsg))
    (hsent : ∀ i x, sends[i]? = some x → ∃ m body content, sent[i]? = some (.ok m) ∧
      m.keyId = id ∧ m.iteration = ck0.iteration + UInt32.ofNat i ∧ m.ciphertext = some body ∧
      encryptCbc C none (some (groupKey C (ck0.iter C i)).iv) (groupKey C (ck0.iter C i)).cipherKey x.1 = .ok body ∧
      m.serialize S = .ok content ∧ m.sig = C.sign k content x.2 ∧ m.version = UInt32.ofNat currentVersion ∧
      m.signature = some (C.sign k content x.2).bytes ∧ body.length < 2 ^ 64)
    (hwrap : ck0.iteration.toNat + sends.length < 2 ^ 32)
    (evs : List GEvent)
    (hevs : ∀ e ∈ evs, match e with
      | .deliver j => j < sends.length
      | .other b => NotSignedBy C S id (C.basePub k) b)
    (st : GStore) (r : GRec) (s : SKState) (w : Window) (hl : st.load nB = .ok (some r))
    (hf : r.find? (fun s => s.keyId == id) = some s) (hpub : s.signing.pub = C.basePub k) (hw : GRefines C ck0 s w)
    (hnext : w.next ≤ ck0.iteration.toNat + sends.length) :
    GroupOutcome (sends.map (·.1)) ck0.iteration.toNat w evs (groupReceive C S nB sent st evs).1 := by
  induction evs generalizing st r s w with
  | nil => trivial
  | cons e es ih =>
    have hes := fun e he => hevs e (List.mem_cons_of_mem _ he)
    cases e with
    | other b =>
      have hb : NotSignedBy C S id (C.basePub k) b := hevs _ List.mem_cons_self
      obtain ⟨r', h1, h2⟩ := recvBytes_other hl hf (by rw [hpub]; exact hb)
      exact ih hes _ r' s w h1 h2 hpub hw hnext
    | deliver j =>
      have hj : j < sends.length := hevs _ List.mem_cons_self
      obtain ⟨m, body, content, h1, h2, h3, h4, h5, h6, h7, h8, h9, h10⟩ := hsent j sends[j] (List.getElem?_eq_getElem hj)
      obtain ⟨b, hb, hd⟩ := hSer.roundtrip m.keyId m.iteration m.ciphertext (C.sign k content sends[j].2).bytes (C.sign k content sends[j].2).len
        (by rw [h4]; simpa using h10)
      have hbytes : GEvent.bytes S sent (.deliver j) = b := by
        simp only [GEvent.bytes, h1, SenderKeyMsg.signedSerialize]
        rw [h8, h9, hb]
      have hparse : newSenderKeyMessageFromBytes S b = .ok m := by
        simp only [newSenderKeyMessageFromBytes, hd, Res.bind_ok, newSenderKeyMessageFromStruct]
        rw [checkVersion_ok.2 (by decide), h4]
        simp only [Res.bind_ok, Res.ok.injEq]
        obtain ⟨a1, a2, a3, a4, a5⟩ := m
        simp only at h4 h8 h9
        simp [h4, h8, h9]
      have hrecv : recvBytes C S st nB (GEvent.bytes S sent (.deliver j)) = st.decrypt C S nB m := by
        rw [hbytes, recvBytes, hparse]
      have hfm : r.find? (fun s => s.keyId == m.keyId) = some s := by rw [h2]; exact hf
      have hv : C.verify s.signing.pub content m.sig = true := by rw [hpub, h7]; exact hS _ _ _ hk
      obtain ⟨v1, v2⟩ := GStore.decrypt_verified C S hl hfm h6 hv
      have hit : m.iteration.toNat = ck0.iteration.toNat + j := by
        rw [h3, UInt32.toNat_add, ofNat_toNat_mod]; omega
      have href := getSenderKey_refines hw m.iteration
      simp only [groupReceive, GroupOutcome, hrecv]
      rw [← hit]
      cases ha : Window.accept groupLimits w m.iteration.toNat with
      | none =>
        rw [ha] at href
        simp only at href ⊢
        rw [v1 _ _ href]
        refine ⟨?_, ih hes st r s w hl hf hpub hw hnext⟩
        by_cases hlt : m.iteration.toNat < Window.counter w.next
        · rw [if_pos hlt]; exact .inl rfl
        · rw [if_neg hlt]; exact .inr rfl
      | some pw =>
        obtain ⟨p, w'⟩ := pw
        rw [ha] at href
        simp only at href ⊢
        obtain ⟨s', hg, hw', hid, hsg, hp⟩ := href
        have hn := accept_next ha (by omega) hw.below
        have hpj : p - ck0.iteration.toNat = j := by omega
        rw [hpj] at hg
        have hdec := decrypt_encryptCbc C hA _ _ _ h5
        obtain ⟨d1, d2⟩ := v2 _ s' sends[j].1 hg (by rw [h4]; exact hdec)
        rw [d1] at d2
        rw [d1]
        refine ⟨⟨_, by simp [hj], rfl⟩, ih hes _ _ s' w' d2 ?_ (by rw [hsg]; exact hpub) hw' (by omega)⟩
        rw [h2]
        have hsid : s.keyId = id := by simpa using List.find?_some hf
        rw [find?_modifyFirst _ _ _ (by intro a _; simp [hid, hsid]), hf]; rfl

/-- **C29.** With either serializer: a sender (with a new or an owned sender key record) creates a distribution message; a receiver without a state for that
key id parses it from the wire and processes it; the sender encrypts any messages.  Then for every sequence of deliveries of those
messages over the wire, in any order, with repetitions and omissions, interleaved with any bytes not signed by the
sender: each delivery that the receive window (2000 ahead, 2000 remembered) accepts yields exactly the plaintext given to
the Encrypt call that produced the message, every other delivery an error. -/
theorem C29_group_delivery (C : Crypto) (S : Ser SKStruct) (hSer : StdSK S) (T : Ser SKDStruct) (hT : StdSKD T) (hA : C.AesLaw) (hS : C.SigLaw) (d : GroupDraws) (stA stA1 : GStore) (nA : SenderKeyName)
    (hown : OwnsName C stA nA) (skdm : SKDMsg) (hcr : stA.create C d nA = (.ok skdm, stA1))
    (hck : (skdm.chainKey.getD []).length < 2 ^ 64)
    (sends : List (Bytes × Arr 64)) (hlen : ∀ x ∈ sends, x.1.length < 2 ^ 63)
    (hwrap : skdm.iteration.toNat + sends.length < 2 ^ 32) (stB : GStore) (nB : SenderKeyName)
    (hfresh : stB.load nB = .ok none ∨ ∃ r, stB.load nB = .ok (some r) ∧ ∀ s ∈ r, s.keyId ≠ skdm.id)
    (evs : List GEvent)
    (hevs : ∀ e ∈ evs, match e with
      | .deliver j => j < sends.length
      | .other b => NotSignedBy C S skdm.id skdm.signatureKey b) :
    ∃ wire parsed, skdm.serialize T = .ok wire ∧ newSKDMFromBytes T wire = .ok parsed ∧
      GroupOutcome (sends.map (·.1)) skdm.iteration.toNat ⟨skdm.iteration.toNat, []⟩ evs
        (groupReceive C S nB (groupSend C S nA stA1 sends).1 (stB.process nB parsed).2 evs).1 := by
  obtain ⟨s, rest, k, hl, hsg, rfl, hk⟩ := GStore.create_ready hown hcr
  obtain ⟨wire, w1, w2⟩ := C26_distribution_message T hT s.keyId s.chain.iteration s.chain.key s.signing.pub hck
  refine ⟨wire, _, w1, w2, ?_⟩
  obtain ⟨-, c2, -⟩ := C32_consecutive C S hSer nA stA1 s rest k hl (by rw [hsg]) sends hlen
  obtain ⟨r', s', p1, p2, p3, p4, p5, p6⟩ := GStore.process_fresh stB nB { newSKDM s.keyId s.chain.iteration s.chain.key s.signing.pub with version := 3 } hfresh
  have hst : s'.signing.pub = C.basePub k := by rw [p3]; show s.signing.pub = _; rw [hsg]
  have hw : GRefines C s.chain s' ⟨s.chain.iteration.toNat, []⟩ := by
    have : s' = ⟨[], s'.keyId, s.chain, s'.signing⟩ := by
      obtain ⟨a, b, c, e⟩ := s'
      simp only at p4 p5
      subst p4
      simp only [newSKDM, Option.getD_some] at p5
      rw [p5]
    rw [this]
    exact grefines_new _ _ _ _
  refine group_delivery C S hSer hA hS nB s.chain s.keyId k hk sends _ c2 hwrap evs ?_ _ r' s' ⟨s.chain.iteration.toNat, []⟩ p1 p2 hst hw (by simp)
  intro e he
  have := hevs e he
  cases e with
  | deliver j => exact this
  | other b => rw [show (newSKDM s.keyId s.chain.iteration s.chain.key s.signing.pub).signatureKey = C.basePub k by show s.signing.pub = _; rw [hsg]] at this; exact this

/-- Reading the specification: distinct messages among the first 2000 are all accepted, in any order. -/
theorem outcome_permutation (pts : List Bytes) (base : Nat) (js : List Nat) (hnd : js.Nodup) (hjs : ∀ j ∈ js, j < 2000) (hb : base + 2000 < 2 ^ 32)
    (w : Window) (hn1 : base ≤ w.next) (hn2 : w.next ≤ base + 2000) (hlen : w.skipped.length ≤ w.next - base)
    (hav : ∀ j ∈ js, w.next ≤ base + j ∨ base + j ∈ w.skipped) (hbelow : ∀ p ∈ w.skipped, p < w.next)
    (rs : List (Res Bytes)) (h : GroupOutcome pts base w (js.map .deliver) rs) :
    rs = js.map (fun j => .ok (pts.getD j [])) := by
  induction js generalizing w rs with
  | nil =>
    cases rs with
    | nil => rfl
    | cons => simp [GroupOutcome] at h
  | cons j js ih =>
    cases rs with
    | nil => simp [GroupOutcome] at h
    | cons r rs =>
      simp only [List.nodup_cons] at hnd
      have hj := hjs j (by simp)
      have e : Window.counter w.next = w.next := Nat.mod_eq_of_lt (by omega)
      simp only [List.map_cons, GroupOutcome] at h
      have hcount : ∀ p ∈ w.skipped, Window.counter p = p := fun p hp => Nat.mod_eq_of_lt (by have := hbelow p hp; omega)
      rcases hav j (by simp) with hge | hmem
      · have hacc : Window.accept groupLimits w (base + j) = some (base + j, ⟨base + j + 1,
            w.skipped ++ (List.range (base + j - w.next)).map (w.next + ·)⟩) := by
          unfold Window.accept
          rw [e, if_neg (by omega), if_pos (show base + j - w.next ≤ groupLimits.future by show _ ≤ 2000; omega)]
          simp only
          rw [show w.next + (base + j - w.next) = base + j by omega]
          have hm : groupLimits.memory = 2000 := rfl
          rw [lastN_of_le (by rw [hm, List.length_append, List.length_map, List.length_range]; omega)]
        rw [hacc] at h
        simp only at h
        obtain ⟨⟨pt, hpt, rfl⟩, h2⟩ := h
        rw [List.map_cons, ih hnd.2 (fun x hx => hjs x (by simp [hx])) _ (by simp only; omega) (by simp only; omega) ?_ ?_ ?_ rs h2]
        · simp [List.getD, hpt]
        · simp only [List.length_append, List.length_map, List.length_range]; omega
        · intro x hx
          have hne : x ≠ j := fun e => hnd.1 (e ▸ hx)
          simp only [List.mem_append, List.mem_map, List.mem_range]
          rcases hav x (by simp [hx]) with h3 | h3
          · by_cases hxj : x < j
            · right; right; exact ⟨base + x - w.next, by omega, by omega⟩
            · left; omega
          · right; left; exact h3
        · intro p hp
          simp only [List.mem_append, List.mem_map, List.mem_range] at hp
          rcases hp with h3 | ⟨i, hi, rfl⟩
          · have := hbelow p h3; simp only; omega
          · simp only; omega
      · have hlt := hbelow _ hmem
        have hfind : ∃ p, w.skipped.find? (fun p => decide (Window.counter p = base + j)) = some p := by
          rw [← Option.isSome_iff_exists, List.find?_isSome]
          exact ⟨_, hmem, by simp [hcount _ hmem]⟩
        obtain ⟨p, hp⟩ := hfind
        have hacc : Window.accept groupLimits w (base + j) = some (p, ⟨w.next, w.skipped.eraseP (fun p => decide (Window.counter p = base + j))⟩) := by
          unfold Window.accept
          rw [e, if_pos hlt, hp]
        rw [hacc] at h
        simp only at h
        obtain ⟨⟨pt, hpt, rfl⟩, h2⟩ := h
        rw [List.map_cons, ih hnd.2 (fun x hx => hjs x (by simp [hx])) ⟨w.next, w.skipped.eraseP (fun p => decide (Window.counter p = base + j))⟩ hn1 hn2 ?_ ?_ ?_ rs h2]
        · simp [List.getD, hpt]
        · exact Nat.le_trans List.eraseP_sublist.length_le hlen
        · intro x hx
          have hne : x ≠ j := fun e => hnd.1 (e ▸ hx)
          rcases hav x (by simp [hx]) with h3 | h3
          · exact .inl h3
          · right
            rw [List.mem_eraseP_of_neg]
            · exact h3
            · simp [hcount _ h3]; omega
        · intro q hq; exact hbelow q (List.mem_of_mem_eraseP hq)

/-- **C29 (any order).** In the situation of `C29_group_delivery`: up to 2000 messages, delivered in any order, each at most once, all
decrypt to their plaintexts. -/
theorem C29_any_order (C : Crypto) (S : Ser SKStruct) (hSer : StdSK S) (T : Ser SKDStruct) (hT : StdSKD T) (hA : C.AesLaw) (hS : C.SigLaw) (d : GroupDraws) (stA stA1 : GStore) (nA : SenderKeyName)
    (hown : OwnsName C stA nA) (skdm : SKDMsg) (hcr : stA.create C d nA = (.ok skdm, stA1))
    (hck : (skdm.chainKey.getD []).length < 2 ^ 64)
    (sends : List (Bytes × Arr 64)) (hlen : ∀ x ∈ sends, x.1.length < 2 ^ 63) (hcount : sends.length ≤ 2000)
    (hwrap : skdm.iteration.toNat + 2000 < 2 ^ 32) (stB : GStore) (nB : SenderKeyName)
    (hfresh : stB.load nB = .ok none ∨ ∃ r, stB.load nB = .ok (some r) ∧ ∀ s ∈ r, s.keyId ≠ skdm.id)
    (js : List Nat) (hnd : js.Nodup) (hjs : ∀ j ∈ js, j < sends.length) :
    ∃ wire parsed, skdm.serialize T = .ok wire ∧ newSKDMFromBytes T wire = .ok parsed ∧
      (groupReceive C S nB (groupSend C S nA stA1 sends).1 (stB.process nB parsed).2 (js.map .deliver)).1 =
        js.map (fun j => .ok ((sends.map (·.1)).getD j [])) := by
  obtain ⟨wire, parsed, h1, h2, h3⟩ := C29_group_delivery C S hSer T hT hA hS d stA stA1 nA hown skdm hcr hck sends hlen (by omega) stB nB hfresh
    (js.map .deliver) (by
      intro e he
      obtain ⟨j, hj, rfl⟩ := List.mem_map.1 he
      exact hjs j hj)
  exact ⟨wire, parsed, h1, h2, outcome_permutation _ _ js hnd (fun j hj => by have := hjs j hj; omega) hwrap _ (by simp) (by simp)
    (by simp) (fun j _ => .inl (by simp)) (by simp) _ h3⟩

end Verif
