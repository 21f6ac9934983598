import Verif.Props.Groups2
import Verif.Proofs.Buffers
/- C94: what a group receiver accepts from a sender key is what its owner sent, each message once. -/
set_option linter.unusedSimpArgs false
namespace Verif

/-! ### The signed content determines the message -/

/-- With either serializer: the content of a parsed message is that of a version-3 message only if key id, iteration and ciphertext agree. -/
theorem content_inj {S : Ser SKStruct} (h : StdSK S) {b : Bytes} {m ms : SenderKeyMsg} {body c : Bytes} (hp : newSenderKeyMessageFromBytes S b = .ok m)
    (hv : ms.version = UInt32.ofNat currentVersion) (hb : ms.ciphertext = some body) (hlen : body.length < 2 ^ 64 - 100)
    (h1 : m.serialize S = .ok c) (h2 : ms.serialize S = .ok c) :
    m.keyId = ms.keyId ∧ m.iteration = ms.iteration ∧ m.ciphertext = ms.ciphertext := by
  have hver : m.version = 2 ∨ m.version = 3 := by
    unfold newSenderKeyMessageFromBytes at hp
    cases hd : S.de b with
    | err e => simp [hd] at hp
    | panic => simp [hd] at hp
    | ok st =>
      simp only [hd, Res.bind_ok, newSenderKeyMessageFromStruct] at hp
      cases hc : checkVersion st.version.toNat with
      | err e => simp [hc] at hp
      | panic => simp [hc] at hp
      | ok u =>
        simp only [hc, Res.bind_ok] at hp
        have := checkVersion_ok.1 hc
        cases hct : st.cipherText with
        | none => simp [hct] at hp
        | some x =>
          simp only [hct, Res.ok.injEq] at hp
          subst hp
          have : st.version.toNat = 2 ∨ st.version.toNat = 3 := by omega
          rcases this with e | e
          · exact .inl (UInt32.toNat_inj.1 e)
          · exact .inr (UInt32.toNat_inj.1 e)
  rcases h with rfl | rfl
  · -- protobuf
    have hvm : m.version = UInt32.ofNat currentVersion := by
      rcases hver with e | e
      · exfalso
        simp only [SenderKeyMsg.serialize, protoSK, skSer, Res.ok.injEq] at h1 h2
        rw [e, if_pos (by decide), show itoa ((2 : UInt32).toNat : Int) = [50] by decide] at h1
        rw [hv, if_pos (by decide), itoa_current32] at h2
        rw [← h2] at h1
        simp at h1
      · exact e
    have hlc : ∀ b ∈ m.ciphertext, b.length < 2 ^ 64 := by
      intro x hx
      have hx : m.ciphertext = some x := hx
      have e1 : c.length ≤ body.length + 70 := by
        simp only [SenderKeyMsg.serialize, protoSK, skSer, Res.ok.injEq] at h2
        rw [hv, if_pos (by decide), itoa_current32, hb] at h2
        rw [← h2]
        have hv10 : ∀ x, (encVarint x).length ≤ 10 := fun x => encVarintAux_le _ _
        have v1 := hv10 (1 * 8)
        have v2 := hv10 ms.keyId.toNat
        have v3 := hv10 (2 * 8)
        have v4 := hv10 ms.iteration.toNat
        have v5 := hv10 (3 * 8 + 2)
        have v6 := hv10 body.length
        simp only [putU32, putBytes, List.length_append, List.length_cons, List.length_nil, Option.getD_none]
        omega
      have e2 : x.length ≤ c.length := by
        simp only [SenderKeyMsg.serialize, protoSK, skSer, Res.ok.injEq] at h1
        rw [hvm, if_pos (by decide), itoa_current32, hx] at h1
        rw [← h1]
        simp only [putU32, putBytes, List.length_append, List.length_cons, List.length_nil, Option.getD_none]
        omega
      omega
    obtain ⟨b1, s1, d1⟩ := skDe_skSer m.keyId m.iteration m.ciphertext (List.replicate 64 0) (by simp) hlc
    obtain ⟨b2, s2, d2⟩ := skDe_skSer ms.keyId ms.iteration ms.ciphertext (List.replicate 64 0) (by simp) (by rw [hb]; intro x hx; cases hx; omega)
    have hbb : b1 = b2 := by
      simp only [SenderKeyMsg.serialize, protoSK, skSer, Res.ok.injEq] at h1 h2 s1 s2
      rw [hvm] at h1
      rw [hv] at h2
      simp only [Option.getD_none, List.append_nil] at h1 h2
      rw [h1] at s1
      rw [h2] at s2
      rw [← s1, ← s2]
    rw [hbb, d2] at d1
    simp only [Res.ok.injEq, SKStruct.mk.injEq] at d1
    exact ⟨d1.1.symm, d1.2.1.symm, d1.2.2.1.symm⟩
  · obtain ⟨b1, s1, d1⟩ := jsonSK_roundtrip { id := m.keyId, iteration := m.iteration, cipherText := m.ciphertext, version := m.version, signature := none }
    obtain ⟨b2, s2, d2⟩ := jsonSK_roundtrip { id := ms.keyId, iteration := ms.iteration, cipherText := ms.ciphertext, version := ms.version, signature := none }
    rw [SenderKeyMsg.serialize, s1] at h1
    rw [SenderKeyMsg.serialize, s2] at h2
    cases h1
    cases h2
    rw [d2] at d1
    simp only [Res.ok.injEq, SKStruct.mk.injEq] at d1
    exact ⟨d1.1.symm, d1.2.1.symm, d1.2.2.1.symm⟩

/-! ### Which message numbers a window can still accept -/

/-- Number `p` is still to come, or remembered as skipped. -/
def Window.Open (w : Window) (p : Nat) : Prop := w.next ≤ p ∨ p ∈ w.skipped

theorem open_of_accept {L : Window.Limits} {w w' : Window} {c p : Nat} (hw : w.next < 2 ^ 32) (hb : ∀ q ∈ w.skipped, q < w.next)
    (hnd : w.skipped.Nodup) (h : Window.accept L w c = some (p, w')) :
    p = c ∧ w.Open p ∧ ¬ w'.Open p ∧ (∀ q, w'.Open q → w.Open q) := by
  have hn := accept_next h hw hb
  obtain ⟨rfl, h1, h2, h3⟩ := hn
  have hmono : ∀ q, ¬ w.Open q → ¬ w'.Open q ∧ p ≠ q := by
    intro q hq
    simp only [Window.Open, not_or, Nat.not_le] at hq
    have := accept_mono hw hq.1 hq.2 h
    exact ⟨by simp only [Window.Open, not_or, Nat.not_le]; exact ⟨this.1, this.2.1⟩, this.2.2⟩
  refine ⟨rfl, ?_, ?_, ?_⟩
  · by_cases ho : w.Open p
    · exact ho
    · exact absurd rfl (hmono p ho).2
  · simp only [Window.Open, not_or, Nat.not_le]
    refine ⟨h1, ?_⟩
    have e : Window.counter w.next = w.next := Nat.mod_eq_of_lt hw
    unfold Window.accept at h
    rw [e] at h
    split at h
    · split at h
      · simp only [Option.some.injEq, Prod.mk.injEq] at h
        obtain ⟨-, rfl⟩ := h
        simp only
        exact not_mem_eraseP hnd (fun p hp => by
          simp [Window.counter, Nat.mod_eq_of_lt (show p < 2 ^ 32 by have := hb p hp; omega)])
      · simp at h
    · split at h
      · simp only [Option.some.injEq, Prod.mk.injEq] at h
        obtain ⟨h5, rfl⟩ := h
        simp only
        intro hm
        have := (lastN_sublist _ _).subset hm
        simp only [List.mem_append, List.mem_map, List.mem_range] at this
        rcases this with h5 | ⟨i, hi, hi'⟩
        · have := hb _ h5; omega
        · omega
      · simp at h
  · intro q hq
    by_cases ho : w.Open q
    · exact ho
    · exact absurd hq (hmono q ho).1

/-! ### Following one sender key through a receiver's history -/

/-- The store's state for key id `id` under `n` verifies with `pub`, and its chain, started at `ck0`, is in window `w`. -/
structure GTrack (C : Crypto) (st : GStore) (n : SenderKeyName) (id : UInt32) (pub : Key32) (ck0 : SChainKey) (w : Window) : Prop where
  at_ : ∃ r s, st.load n = .ok (some r) ∧ r.find? (fun s : SKState => s.keyId == id) = some s ∧ s.signing.pub = pub ∧ GRefines C ck0 s w
  lt : w.next < 2 ^ 32

theorem GTrack.step {C : Crypto} {S : Ser SKStruct} {st : GStore} {n : SenderKeyName} {id : UInt32} {pub : Key32} {ck0 : SChainKey} {w : Window}
    (h : GTrack C st n id pub ck0 w) {op : GOp} (hs : op.Safe st) :
    ∃ w', GTrack C (op.apply C S st) n id pub ck0 w' ∧ (∀ q, w'.Open q → w.Open q) ∧
      ∀ m pt, op = .decrypt n m → m.keyId = id → (st.decrypt C S n m).1 = .ok pt →
        w.Open m.iteration.toNat ∧ ¬ w'.Open m.iteration.toNat ∧ ck0.iteration.toNat ≤ m.iteration.toNat ∧
        (∃ c, m.serialize S = .ok c ∧ C.verify pub c m.sig = true) ∧
        decryptCbc C (some (groupKey C (ck0.iter C (m.iteration.toNat - ck0.iteration.toNat))).iv)
          (groupKey C (ck0.iter C (m.iteration.toNat - ck0.iteration.toNat))).cipherKey (m.ciphertext.getD []) = .ok pt := by
  obtain ⟨⟨r, s, hl, hf, hpub, hw⟩, hlt⟩ := h
  by_cases hop : ∃ m, op = .decrypt n m ∧ m.keyId = id
  · obtain ⟨m, rfl, rfl⟩ := hop
    rcases GStore.decrypt_cases C S hl m with ⟨h1, h2⟩ | ⟨s1, body, mk, s', pt, h1, h2, h3, h4, h5, h6, -, h8⟩
    · refine ⟨w, ⟨⟨r, s, ?_, hf, hpub, hw⟩, hlt⟩, fun _ hq => hq, ?_⟩
      · show (st.decrypt C S n m).2.load n = _; rw [h1]; exact hl
      · intro m' pt hm _ hok
        cases hm
        rw [hok] at h2
        simp [Res.isOk] at h2
    · rw [hf] at h1
      cases h1
      have href := getSenderKey_refines hw m.iteration
      cases ha : Window.accept groupLimits w m.iteration.toNat with
      | none => rw [ha] at href; simp only at href; rw [h4] at href; simp at href
      | some pw =>
        obtain ⟨q, w'⟩ := pw
        rw [ha] at href
        obtain ⟨s2, hg2, hw2, hid, hsg, hge⟩ := href
        rw [h4] at hg2
        simp only [Prod.mk.injEq, Res.ok.injEq, Option.some.injEq] at hg2
        obtain ⟨rfl, rfl⟩ := hg2
        have hn := accept_next ha hlt hw.below
        obtain ⟨rfl, o1, o2, o3⟩ := open_of_accept hlt hw.below hw.nodup ha
        have hb := m.iteration.toNat_lt
        have hs : m.iteration.toNat ≠ 2 ^ 32 - 1 := hs
        have hs1 : s.keyId = m.keyId := by simpa using List.find?_some hf
        refine ⟨w', ⟨⟨_, s', h8, ?_, by rw [hsg]; exact hpub, hw2⟩, by omega⟩, o3, ?_⟩
        · rw [find?_modifyFirst _ _ _ (by intro a _; simp [hid, hs1]), hf]; rfl
        · intro m' pt' hm _ hok
          cases hm
          rw [hok] at h6
          cases h6
          exact ⟨o1, o2, hge, ⟨body, h2, by rw [← hpub]; exact h3⟩, h5⟩
  · -- any other operation
    suffices hh : ∃ w', GTrack C (op.apply C S st) n id pub ck0 w' ∧ (∀ q, w'.Open q → w.Open q) by
      obtain ⟨w', a, b⟩ := hh
      exact ⟨w', a, b, fun m pt hm hid _ => absurd ⟨m, hm, hid⟩ hop⟩
    have hsame : ∀ n' (r' : GRec), n' ≠ n → ∃ w', GTrack C (st.save n' r') n id pub ck0 w' ∧ (∀ q, w'.Open q → w.Open q) := fun n' r' hne =>
      ⟨w, ⟨⟨r, s, by rw [GStore.load_save_ne _ _ (Ne.symm hne)]; exact hl, hf, hpub, hw⟩, hlt⟩, fun _ hq => hq⟩
    have hsave : ∀ (r' : GRec) s' w', r'.find? (fun s : SKState => s.keyId == id) = some s' → s'.signing.pub = pub → GRefines C ck0 s' w' → w'.next < 2 ^ 32 →
        (∀ q, w'.Open q → w.Open q) → ∃ w', GTrack C (st.save n r') n id pub ck0 w' ∧ (∀ q, w'.Open q → w.Open q) := by
      intro r' s' w' h1 h2 h3 h4 h5
      refine ⟨w', ⟨⟨_, s'.reloaded, GStore.load_save _ _ _, ?_, h2, h3.transport rfl rfl⟩, h4⟩, h5⟩
      rw [List.find?_map, show (fun s : SKState => s.keyId == id) ∘ SKState.reloaded = fun s => s.keyId == id from rfl, h1]; rfl
    rcases GOp.apply_cases C S st op with he | ⟨n', s1, rest, pt, rand, rfl, hl', he⟩ | ⟨n', m, r', s1, mk, s', rfl, hl', hf', hg, he⟩ |
          ⟨n', m, o, rfl, hl', he⟩ | ⟨n', d, kp, rfl, hl', he⟩ <;> rw [he]
    · exact ⟨w, ⟨⟨r, s, hl, hf, hpub, hw⟩, hlt⟩, fun _ hq => hq⟩
    · by_cases hne : n' = n
      · subst hne
        rw [hl] at hl'
        simp only [Res.ok.injEq, Option.some.injEq] at hl'
        subst hl'
        by_cases hid : s1.keyId = id
        · rw [List.find?_cons, show (s1.keyId == id) = true by simpa using hid] at hf
          simp only [Option.some.injEq] at hf
          subst hf
          have hsafe := hs s1 rest hl
          rw [hw.iteration_lt hlt] at hsafe
          refine hsave _ { s1 with chain := s1.chain.next C } ⟨w.next + 1, w.skipped⟩ ?_ hpub hw.advance (by show w.next + 1 < _; omega) ?_
          · rw [List.find?_cons]
            simp [hid]
          · rintro q (hq | hq)
            · exact .inl (by have : w.next + 1 ≤ q := hq; omega)
            · exact .inr hq
        · refine hsave _ s w ?_ hpub hw hlt fun _ hq => hq
          have hb : (s1.keyId == id) = false := by simpa using hid
          rw [List.find?_cons] at hf ⊢
          simp only [hb] at hf ⊢
          exact hf
      · exact hsame _ _ hne
    · by_cases hne : n' = n
      · subst hne
        rw [hl] at hl'
        simp only [Res.ok.injEq, Option.some.injEq] at hl'
        subst hl'
        have hfix := getSenderKey_fixed C s1 m.iteration
        rw [hg] at hfix
        simp only at hfix
        have hs1 : s1.keyId = m.keyId := by simpa using List.find?_some hf'
        have hid : m.keyId ≠ id := fun e => hop ⟨m, rfl, e⟩
        refine hsave _ s w ?_ hpub hw hlt fun _ hq => hq
        rw [find?_modifyFirst_ne, hf]
        intro a ha
        have ha : a.keyId = m.keyId := by simpa using ha
        simp [ha, hfix.1, hs1, hid]
      · exact hsame _ _ hne
    · by_cases hne : n' = n
      · subst hne
        rw [hl] at hl'
        simp only [Res.ok.injEq] at hl'
        subst hl'
        rw [groupProcess_room (hs r hl)]
        refine hsave _ s w ?_ hpub hw hlt fun _ hq => hq
        rw [List.find?_append, hf]; rfl
      · exact hsame _ _ hne
    · by_cases hne : n' = n
      · subst hne
        rcases hl' with hl' | hl' <;> rw [hl] at hl' <;> simp at hl'
        subst hl'
        simp at hf
      · exact hsame _ _ hne

/-! ### C94 -/

/-- The plaintexts a receiver's history returned for messages naming key id `id` under the sender name `n`, in order. -/
def gAccepted (C : Crypto) (S : Ser SKStruct) (n : SenderKeyName) (id : UInt32) : GStore → List GOp → List Bytes
  | _, [] => []
  | st, op :: ops =>
    (match op with
      | .decrypt n' m =>
        if n' = n ∧ m.keyId = id then
          match (st.decrypt C S n m).1 with
          | .ok pt => [pt]
          | _ => []
        else []
      | _ => []) ++ gAccepted C S n id (op.apply C S st) ops

/-- No signature was forged: every message in the history that names key id `id` and verifies under `pub` has the content of a message in `sent`. -/
def Unforged (C : Crypto) (S : Ser SKStruct) (n : SenderKeyName) (id : UInt32) (pub : Key32) (sent : List (Res SenderKeyMsg)) (ops : List GOp) : Prop :=
  ∀ m c, GOp.decrypt n m ∈ ops → m.keyId = id → m.serialize S = .ok c → C.verify pub c m.sig = true →
    ∃ ms, Res.ok ms ∈ sent ∧ ms.serialize S = .ok c

/-- Every message the history decrypts under `n` was parsed from bytes. -/
def AllParsed (S : Ser SKStruct) (n : SenderKeyName) (ops : List GOp) : Prop :=
  ∀ m, GOp.decrypt n m ∈ ops → ∃ b, newSenderKeyMessageFromBytes S b = .ok m

theorem gAccepted_sent (C : Crypto) (S : Ser SKStruct) (hSer : StdSK S) (hA : C.AesLaw) (n : SenderKeyName) (ck0 : SChainKey) (id : UInt32) (pub : Key32)
    (sends : List (Bytes × Arr 64)) (sent : List (Res SenderKeyMsg)) (hlen : sent.length = sends.length)
    (hpl : ∀ x ∈ sends, x.1.length < 2 ^ 63)
    (hsent : ∀ i x, sends[i]? = some x → ∃ m body, sent[i]? = some (.ok m) ∧
      m.iteration = ck0.iteration + UInt32.ofNat i ∧ m.ciphertext = some body ∧
      encryptCbc C none (some (groupKey C (ck0.iter C i)).iv) (groupKey C (ck0.iter C i)).cipherKey x.1 = .ok body ∧
      m.version = UInt32.ofNat currentVersion)
    (hwrap : ck0.iteration.toNat + sends.length < 2 ^ 32) (ops : List GOp) (st : GStore) (w : Window)
    (ht : GTrack C st n id pub ck0 w) (hsafe : SafeRun C S st ops) (hpar : AllParsed S n ops) (hun : Unforged C S n id pub sent ops) :
    ∃ js : List Nat, js.Nodup ∧ (gAccepted C S n id st ops).map some = js.map (fun j => sends[j]?.map (·.1)) ∧
      ∀ j ∈ js, w.Open (ck0.iteration.toNat + j) := by
  induction ops generalizing st w with
  | nil => exact ⟨[], by simp, rfl, by simp⟩
  | cons op ops ih =>
    obtain ⟨w', t1, t2, t3⟩ := ht.step (S := S) hsafe.1
    obtain ⟨js, j1, j2, j3⟩ := ih _ w' t1 hsafe.2 (fun m hm => hpar m (List.mem_cons_of_mem _ hm))
      (fun m c hm => hun m c (List.mem_cons_of_mem _ hm))
    have hnone : ∀ l : List Bytes, l = [] → ∃ js : List Nat, js.Nodup ∧
        (l ++ gAccepted C S n id (op.apply C S st) ops).map some = js.map (fun j => sends[j]?.map (·.1)) ∧
        ∀ j ∈ js, w.Open (ck0.iteration.toNat + j) := by
      rintro l rfl
      exact ⟨js, j1, j2, fun j hj => t2 _ (j3 j hj)⟩
    cases op with
    | encrypt _ _ _ => exact hnone [] rfl
    | process _ _ => exact hnone [] rfl
    | create _ _ => exact hnone [] rfl
    | decrypt n' m =>
      simp only [gAccepted]
      by_cases hc : n' = n ∧ m.keyId = id
      · rw [if_pos hc]
        obtain ⟨rfl, hid⟩ := hc
        cases hr : (st.decrypt C S n' m).1 with
        | err e => exact hnone [] rfl
        | panic => exact hnone [] rfl
        | ok pt =>
          obtain ⟨o1, o2, o3, ⟨c, c1, c2⟩, o5⟩ := t3 m pt rfl hid hr
          obtain ⟨ms, hms, hmc⟩ := hun m c List.mem_cons_self hid c1 c2
          obtain ⟨b, hb⟩ := hpar m List.mem_cons_self
          obtain ⟨j, hj, hje⟩ := List.mem_iff_getElem.1 hms
          have hj' : j < sends.length := by omega
          obtain ⟨m', body, e1, e2, e3, e4, e5⟩ := hsent j sends[j] (List.getElem?_eq_getElem hj')
          rw [List.getElem?_eq_getElem hj, hje] at e1
          cases e1
          have hbl : body.length < 2 ^ 64 - 100 := by
            have hp63 := hpl sends[j] (List.getElem_mem hj')
            have hke := (aesKeyOk_iff _).2 (.inr (.inr (groupKey_cipherKey C (ck0.iter C j))))
            rw [encryptCbc_some C none _ _ _ hke] at e4
            have := cbcCrypt_length (cbcEncBlocks_length C _) e4
            rw [pad_length] at this
            omega
          obtain ⟨-, f2, f3⟩ := content_inj hSer hb e5 e3 hbl c1 hmc
          have hit : m.iteration.toNat = ck0.iteration.toNat + j := by
            rw [f2, e2, UInt32.toNat_add, ofNat_toNat_mod]; omega
          have hpt : pt = sends[j].1 := by
            have hd := decrypt_encryptCbc C hA _ _ _ e4
            rw [hit, show ck0.iteration.toNat + j - ck0.iteration.toNat = j by omega, f3, e3] at o5
            rw [show (some body).getD [] = body from rfl, hd] at o5
            cases o5; rfl
          refine ⟨j :: js, ?_, ?_, ?_⟩
          · rw [List.nodup_cons]
            refine ⟨fun hm => o2 ?_, j1⟩
            rw [hit]; exact j3 j hm
          · simp only [List.cons_append, List.nil_append, List.map_cons, j2]
            rw [List.getElem?_eq_getElem hj', hpt]; rfl
          · intro x hx
            rcases List.mem_cons.1 hx with rfl | hx
            · rw [← hit]; exact o1
            · exact t2 _ (j3 x hx)
      · rw [if_neg hc]
        exact hnone [] rfl

/-- **C94 (partial).** With either serializer: a sender (with a new or an owned sender key record) creates a distribution message and encrypts any messages; a
receiver without a state for that key id parses the distribution message from the wire and processes it.  Then in every later history of the
receiver - any group calls under any names, any distribution messages, any bytes received as group messages from anyone, including
other group members, who know the chain key - in which no signature under the sender's signing key was forged: the plaintexts that Decrypt returned for
messages naming that sender and key id are the plaintexts of distinct messages the sender encrypted.  Missing: histories in which the receiver processes so many distribution messages
for the name that its record overflows (`SafeRun` excludes them), for which the claim is false (`C94_overflow_false`), and the wrap-around of iterations. -/
theorem C94_group_authentic_partial (C : Crypto) (S : Ser SKStruct) (hSer : StdSK S) (T : Ser SKDStruct) (hT : StdSKD T) (hA : C.AesLaw) (d : GroupDraws) (stA stA1 : GStore) (nA : SenderKeyName)
    (hown : OwnsName C stA nA) (skdm : SKDMsg) (hcr : stA.create C d nA = (.ok skdm, stA1))
    (hck : (skdm.chainKey.getD []).length < 2 ^ 64)
    (sends : List (Bytes × Arr 64)) (hlen : ∀ x ∈ sends, x.1.length < 2 ^ 63)
    (hwrap : skdm.iteration.toNat + sends.length < 2 ^ 32) (stB : GStore) (nB : SenderKeyName)
    (hfresh : stB.load nB = .ok none ∨ ∃ r, stB.load nB = .ok (some r) ∧ ∀ s ∈ r, s.keyId ≠ skdm.id) :
    ∃ wire parsed, skdm.serialize T = .ok wire ∧ newSKDMFromBytes T wire = .ok parsed ∧
      ∀ ops, SafeRun C S (stB.process nB parsed).2 ops → AllParsed S nB ops →
        Unforged C S nB skdm.id skdm.signatureKey (groupSend C S nA stA1 sends).1 ops →
        ∃ js : List Nat, js.Nodup ∧
          (gAccepted C S nB skdm.id (stB.process nB parsed).2 ops).map some = js.map (fun j => sends[j]?.map (·.1)) := by
  obtain ⟨s, rest, k, hl, hsg, rfl, hk⟩ := GStore.create_ready hown hcr
  obtain ⟨wire, w1, w2⟩ := C26_distribution_message T hT s.keyId s.chain.iteration s.chain.key s.signing.pub hck
  refine ⟨wire, _, w1, w2, ?_⟩
  obtain ⟨c1, c2, -⟩ := C32_consecutive C S hSer nA stA1 s rest k hl (by rw [hsg]) sends hlen
  obtain ⟨r', s', p1, p2, p3, p4, p5, p6⟩ := GStore.process_fresh stB nB { newSKDM s.keyId s.chain.iteration s.chain.key s.signing.pub with version := 3 } hfresh
  have hw : GRefines C s.chain s' ⟨s.chain.iteration.toNat, []⟩ := by
    have : s' = ⟨[], s'.keyId, s.chain, s'.signing⟩ := by
      obtain ⟨a, b, c, e⟩ := s'
      simp only at p4 p5
      subst p4
      simp only [newSKDM, Option.getD_some] at p5
      rw [p5]
    rw [this]
    exact grefines_new _ _ _ _
  intro ops hs hp hu
  obtain ⟨js, j1, j2, -⟩ := gAccepted_sent C S hSer hA nB s.chain s.keyId s.signing.pub sends _ c1 hlen (fun i x hx => by
    obtain ⟨m, body, content, a1, a2, a3, a4, a5, a6, a7, a8, a9, a10⟩ := c2 i x hx
    exact ⟨m, body, a1, a3, a4, a5, a8⟩) hwrap ops _ ⟨s.chain.iteration.toNat, []⟩ ⟨⟨r', s', p1, p2, p3, hw⟩, s.chain.iteration.toNat_lt⟩ hs hp hu
  exact ⟨js, j1, j2⟩

/-- The state `Process` adds, as it is loaded. -/
def processed (skdm : SKDMsg) : SKState := SKState.reloaded ⟨[], skdm.id, ⟨skdm.iteration, skdm.chainKey.getD []⟩, ⟨skdm.signatureKey, none⟩⟩

theorem process_room {st : GStore} {n : SenderKeyName} {r : GRec} (hl : st.load n = .ok (some r)) (skdm : SKDMsg) (hr : r.length < 2000) :
    (st.process n skdm).2.load n = .ok (some (r ++ [processed skdm])) := by
  simp only [GStore.process, hl]
  rw [GStore.load_save, groupProcess_room hr, List.map_append, reloaded_map (GStore.loaded hl)]
  rfl

theorem process_full {st : GStore} {n : SenderKeyName} {s : SKState} {r : GRec} (hl : st.load n = .ok (some (s :: r))) (skdm : SKDMsg) (hr : r.length = 1999) :
    (st.process n skdm).2.load n = .ok (some (r ++ [processed skdm])) := by
  have hld := GStore.loaded hl
  simp only [GStore.process, hl]
  rw [GStore.load_save]
  have e : groupMaxMessageKeys = 2000 := rfl
  simp only [groupProcess, GRec.addState, Option.getD_some]
  rw [if_pos (by simp only [List.length_append, List.length_cons, List.length_nil]; omega)]
  simp only [List.cons_append, List.drop_succ_cons, List.drop_zero, List.map_append]
  rw [reloaded_map (fun x hx => hld x (List.mem_cons_of_mem _ hx))]
  rfl

theorem process_many (C : Crypto) (S : Ser SKStruct) (n : SenderKeyName) (skdm : SKDMsg) (k : Nat) (st : GStore) (r : GRec) (hl : st.load n = .ok (some r))
    (hr : r.length + k ≤ 2000) : (gRun C S st (List.replicate k (.process n skdm))).load n = .ok (some (r ++ List.replicate k (processed skdm))) := by
  induction k generalizing st r with
  | zero => simpa [gRun] using hl
  | succ k ih =>
    rw [List.replicate_succ]
    have h1 := process_room hl skdm (by omega)
    have h2 := ih (st.process n skdm).2 _ h1 (by simp only [List.length_append, List.length_singleton]; omega)
    show (gRun C S (st.process n skdm).2 (List.replicate k (.process n skdm))).load n = _
    rw [h2, List.append_assoc]
    rfl

/-- **C94 is false once a record overflows.** For every distribution message and every message that decrypts after processing it: decrypt the message, process the same
distribution message 2000 more times, and the message decrypts again, to the same plaintext.  (Every processing adds a state, the used state is the oldest and is dropped, and an unused
copy of it takes its place.)  Processing it 1999 more times does not have this effect. -/
theorem C94_overflow_false (C : Crypto) (S : Ser SKStruct) (n : SenderKeyName) (skdm : SKDMsg) (m : SenderKeyMsg) (pt : Bytes)
    (h : ((GStore.empty.process n skdm).2.decrypt C S n m).1 = .ok pt) :
    ((gRun C S GStore.empty (.process n skdm :: .decrypt n m :: List.replicate 2000 (.process n skdm))).decrypt C S n m).1 = .ok pt ∧
    (m.iteration.toNat ≠ 2 ^ 32 - 1 →
      ((gRun C S GStore.empty (.process n skdm :: .decrypt n m :: List.replicate 1999 (.process n skdm))).decrypt C S n m).1.isOk = false) := by
  have h0 : (GStore.empty.process n skdm).2.load n = .ok (some [processed skdm]) := by
    have he : GStore.empty.load n = .ok none := rfl
    simp only [GStore.process, he]
    rw [GStore.load_save]
    simp only [groupProcess, GRec.addState, Option.getD_none, List.nil_append]
    rw [if_neg (by simp [groupMaxMessageKeys])]
    rfl
  rcases GStore.decrypt_cases C S h0 m with ⟨-, h2⟩ | ⟨s, body, mk, s', pt', h1, h2, h3, h4, h5, h6, -, h8⟩
  · rw [h] at h2; simp [Res.isOk] at h2
  rw [h] at h6
  cases h6
  have hf0 : (processed skdm).keyId = m.keyId := by
    have := List.find?_some h1
    have hm := List.mem_of_find?_eq_some h1
    rw [List.mem_singleton] at hm
    subst hm
    simpa using this
  have hs : s = processed skdm := by simpa using List.mem_of_find?_eq_some h1
  subst hs
  have h8' : ((GStore.empty.process n skdm).2.decrypt C S n m).2.load n = .ok (some [s']) := by
    rw [h8]
    simp [modifyFirst, hf0]
  constructor
  · have key : ∀ k : Nat, k = 1999 →
        ((gRun C S GStore.empty (.process n skdm :: .decrypt n m :: List.replicate (k + 1) (.process n skdm))).decrypt C S n m).1 = .ok pt := by
      intro k hk
      have many := process_many C S n skdm k _ _ h8' (by simp only [List.length_singleton]; omega)
      have hrun : gRun C S GStore.empty (.process n skdm :: .decrypt n m :: List.replicate (k + 1) (.process n skdm)) =
          ((gRun C S ((GStore.empty.process n skdm).2.decrypt C S n m).2 (List.replicate k (.process n skdm))).process n skdm).2 := by
        rw [List.replicate_succ']
        show gRun C S ((GStore.empty.process n skdm).2.decrypt C S n m).2 (List.replicate k (.process n skdm) ++ [.process n skdm]) = _
        rw [gRun_append]
        rfl
      rw [hrun]
      rw [List.cons_append, List.nil_append] at many
      have full := process_full many skdm (by rw [List.length_replicate]; exact hk)
      have hfind : (List.replicate k (processed skdm) ++ [processed skdm]).find? (fun s : SKState => s.keyId == m.keyId) = some (processed skdm) := by
        rw [← List.replicate_succ', List.replicate_succ, List.find?_cons_of_pos (by simp [hf0])]
      obtain ⟨d1, -⟩ := (GStore.decrypt_verified C S full hfind h2 h3).2 mk s' pt h4 h5
      rw [d1]
    exact key 1999 rfl
  · intro hit
    have safe : SafeRun C S GStore.empty ([.process n skdm] ++ .decrypt n m :: List.replicate 1999 (.process n skdm)) := by
      have many : ∀ k st r, st.load n = .ok (some r) → r.length + k ≤ 2000 → SafeRun C S st (List.replicate k (.process n skdm)) := by
        intro k
        induction k with
        | zero => intro _ _ _ _; trivial
        | succ k ih =>
          intro st r hl hr
          rw [List.replicate_succ]
          refine ⟨fun r' hl' => ?_, ih (st.process n skdm).2 _ (process_room hl skdm (by omega)) (by simp only [List.length_append, List.length_singleton]; omega)⟩
          rw [hl] at hl'
          simp only [Res.ok.injEq, Option.some.injEq] at hl'
          subst hl'
          omega
      refine ⟨fun r hr => ?_, hit, ?_⟩
      · have he : GStore.empty.load n = .ok none := rfl
        rw [he] at hr
        simp at hr
      · exact many 1999 ((GStore.empty.process n skdm).2.decrypt C S n m).2 [s'] h8' (by simp only [List.length_singleton]; omega)
    exact C30_no_replay C S n m m [.process n skdm] (List.replicate 1999 (.process n skdm)) safe
      (by show ((GStore.empty.process n skdm).2.decrypt C S n m).1.isOk = true; rw [h]; rfl) rfl rfl

/-- **C94 fails when the 32-bit counter wraps around.** A receiver that has accepted the message numbered 2^32-1 takes any message numbered 0 with a valid signature — also the sender's very
first one, accepted long ago — to be the next one: it is decrypted with the key of the sender's message number 2^32 and whatever comes out is returned.  (Nothing but the padding is checked after
the signature.) -/
theorem C94_wrap_false (C : Crypto) (S : Ser SKStruct) (st : GStore) (n : SenderKeyName) (r : GRec) (s : SKState) (m old : SenderKeyMsg) (pt body : Bytes)
    (hl : st.load n = .ok (some r)) (hf : r.find? (fun s => s.keyId == m.keyId) = some s) (hi : s.chain.iteration = 0xFFFFFFFF) (hm : m.iteration = 0xFFFFFFFF)
    (hd : (st.decrypt C S n m).1 = .ok pt) (hid : old.keyId = m.keyId) (hz : old.iteration = 0) (hb : old.serialize S = .ok body)
    (hv : C.verify s.signing.pub body old.sig = true) (out : Bytes)
    (ho : decryptCbc C (some (groupKey C (s.chain.next C)).iv) (groupKey C (s.chain.next C)).cipherKey (old.ciphertext.getD []) = .ok out) :
    ((st.decrypt C S n m).2.decrypt C S n old).1 = .ok out := by
  have hk : ∀ (s : SKState), getSenderKey C s s.chain.iteration = (.ok (some (groupKey C s.chain)), { s with chain := s.chain.next C }) := by
    intro s
    simp [getSenderKey, groupSkip, msgKey_eq, Res.map]
  rcases GStore.decrypt_cases C S hl m with ⟨-, h2⟩ | ⟨s1, body1, mk, s', pt1, h1, h2, h3, h4, h5, h6, -, h8⟩
  · rw [hd] at h2; simp [Res.isOk] at h2
  · rw [hf, Option.some.injEq] at h1
    subst h1
    rw [hm, ← hi, hk] at h4
    simp only [Prod.mk.injEq] at h4
    obtain ⟨-, rfl⟩ := h4
    have hkey : (s.keyId == m.keyId) = true := by have := List.find?_some hf; simpa using this
    have hfind : (modifyFirst (fun s : SKState => s.keyId == m.keyId) (fun _ => { s with chain := s.chain.next C }) r).find? (fun s : SKState => s.keyId == old.keyId) =
        some { s with chain := s.chain.next C } := by
      rw [hid, find?_modifyFirst (fun s : SKState => s.keyId == m.keyId) (fun _ => { s with chain := s.chain.next C }) r (fun _ _ => hkey), hf]; rfl
    have hz' : old.iteration = ({ s with chain := s.chain.next C } : SKState).chain.iteration := by
      rw [hz]; simp [SChainKey.next, hi]
    have hk' := hk { s with chain := s.chain.next C }
    rw [← hz'] at hk'
    exact ((GStore.decrypt_verified C S h8 hfind hb hv).2 _ _ out hk' ho).1 ▸ rfl

/-! ### Concrete cases -/

section
open Toy
set_option maxRecDepth 100000

/-- A history: the second and the first message, a replay, a message of another key id, a message whose ciphertext was replaced, a distribution
message of the same key id with another signing key, and a message signed with that key. -/
def gAuthOps : List GOp :=
  let sent := (groupSend C protoSK gName gSender gSends).1
  [.decrypt gName (gFirst (sent.drop 1)), .decrypt gName gMsg0, .decrypt gName gMsg0, .decrypt gName { gMsg0 with keyId := 5 },
   .decrypt gName { gMsg0 with ciphertext := some [1, 2] }, .process gName gSkdm2, .decrypt gName gMsg2]

/-- The receiver's store once the distribution message is processed. -/
def gAuthStore : GStore := (GStore.empty.process gName gSkdm).2

theorem gAuth_accepted : gAccepted C protoSK gName gSkdm.id gAuthStore gAuthOps = [[], [1, 2, 3]] := by decide +kernel

theorem gAuth_safe : SafeRun C protoSK gAuthStore gAuthOps := by
  refine ⟨?_, ?_, ?_, ?_, ?_, ?_, ?_, trivial⟩
  iterate 5 (show UInt32.toNat _ ≠ _; decide +kernel)
  · intro r hr
    have hlen : ((gRun C protoSK gAuthStore (gAuthOps.take 5)).load gName).map (·.map List.length) = .ok (some 1) := by decide +kernel
    have hr' : (gRun C protoSK gAuthStore (gAuthOps.take 5)).load gName = .ok (some r) := hr
    rw [hr'] at hlen
    simp at hlen
    omega
  · show UInt32.toNat _ ≠ _; decide +kernel

/-- A decrypted message of the history, with a wire form of it. -/
def gAuthWire (m : SenderKeyMsg) : Bytes := match m.signedSerialize protoSK with
  | .ok b => b
  | _ => []

/-- A test of the message a Decrypt call was given. -/
def gAuthTest (f : SenderKeyMsg → Bool) : GOp → Bool
  | .decrypt _ m => f m
  | _ => true

theorem gAuth_parsed : AllParsed protoSK gName gAuthOps := by
  have key : gAuthOps.all (gAuthTest fun m => decide (newSenderKeyMessageFromBytes protoSK (gAuthWire m) = .ok m)) = true := by decide +kernel
  intro m hm
  exact ⟨_, by simpa [gAuthTest] using List.all_eq_true.1 key _ hm⟩

/-- The signature test of one message, and whether its content is that of a sent one. -/
def gAuthGood (m : SenderKeyMsg) : Bool :=
  match m.serialize protoSK with
  | .ok c => !(C.verify gSkdm.signatureKey c m.sig) ||
      (groupSend C protoSK gName gSender gSends).1.any (fun r => match r with
        | .ok ms => decide (ms.serialize protoSK = .ok c)
        | _ => false)
  | _ => true

theorem gAuth_unforged : Unforged C protoSK gName gSkdm.id gSkdm.signatureKey (groupSend C protoSK gName gSender gSends).1 gAuthOps := by
  have key : gAuthOps.all (gAuthTest gAuthGood) = true := by decide +kernel
  intro m c hm hid hc hv
  have h : gAuthGood m = true := List.all_eq_true.1 key _ hm
  simp only [gAuthGood, hc, hv, Bool.not_true, Bool.false_or, List.any_eq_true] at h
  obtain ⟨x, hx, h⟩ := h
  cases x with
  | ok ms => exact ⟨ms, hx, by simpa using h⟩
  | err e => simp at h
  | panic => simp at h

/-- Non-vacuity of C94: in that history two plaintexts are accepted, those of messages 1 and 0. -/
example : ∃ parsed, (GStore.empty.process gName parsed).2.recs gName = gAuthStore.recs gName ∧
    ∃ js : List Nat, js.Nodup ∧ ([[], [1, 2, 3]] : List Bytes).map some = js.map (fun j => gSends[j]?.map (·.1)) := by
  obtain ⟨wire, parsed, h1, h2, h3⟩ := C94_group_authentic_partial C protoSK (.inl rfl) protoSKD (.inl rfl) aesLaw (gDraws 3 77) GStore.empty gSender gName toy_owns gSkdm toy_create
    (by decide +kernel) gSends (by decide) (by decide +kernel) GStore.empty gName (.inl rfl)
  have hpar : (match gSkdm.serialize protoSKD with
      | .ok w => (match newSKDMFromBytes protoSKD w with
        | .ok p => decide ({ p with version := gSkdm.version } = gSkdm)
        | _ => false)
      | _ => false) = true := by decide +kernel
  rw [h1] at hpar
  simp only [h2, decide_eq_true_eq] at hpar
  have hst : GStore.empty.process gName parsed = GStore.empty.process gName gSkdm := by
    rw [← hpar]; rfl
  refine ⟨parsed, by rw [hst]; rfl, ?_⟩
  have := h3 gAuthOps (by rw [hst]; exact gAuth_safe) gAuth_parsed gAuth_unforged
  rw [hst, show (GStore.empty.process gName gSkdm).2 = gAuthStore from rfl, gAuth_accepted] at this
  exact this

/-- Non-vacuity of `C94_overflow_false`. -/
example : ((gRun C protoSK GStore.empty (.process gName gSkdm :: .decrypt gName gMsg0 :: List.replicate 2000 (.process gName gSkdm))).decrypt C protoSK gName gMsg0).1 = .ok [1, 2, 3] :=
  (C94_overflow_false C protoSK gName gSkdm gMsg0 [1, 2, 3] (by decide +kernel)).1

/-- A sender whose next message has the last number, with the receiver that got its distribution message; and its next two messages. -/
def lastState : SKState := ⟨[], 77, ⟨0xFFFFFFFF, (key 3).bytes⟩, ⟨(idPair 4).pub, some (idPair 4).priv⟩⟩
def lastSender : GStore := GStore.empty.save gName [lastState]
def lastReceiver : GStore := (GStore.empty.process gName (newSKDM 77 0xFFFFFFFF (key 3).bytes (idPair 4).pub)).2
def lastMsgs : List (Res SenderKeyMsg) := (groupSend C protoSK gName lastSender [([1], gRand), ([2], gRand)]).1

/-- Non-vacuity of `C94_wrap_false`: the messages numbered 2^32-1 and 0 are both accepted, in that order. -/
example : (gFirst lastMsgs).iteration = 0xFFFFFFFF ∧ (gFirst (lastMsgs.drop 1)).iteration = 0 ∧
    (lastReceiver.decrypt C protoSK gName (gFirst lastMsgs)).1 = .ok [1] ∧
    ((lastReceiver.decrypt C protoSK gName (gFirst lastMsgs)).2.decrypt C protoSK gName (gFirst (lastMsgs.drop 1))).1 = .ok [2] := by
  refine ⟨by decide +kernel, by decide +kernel, by decide +kernel, by decide +kernel⟩
end

end Verif
