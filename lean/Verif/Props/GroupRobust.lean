import Verif.Props.Groups2
import Verif.Props.GroupStores
import Verif.Props.Provision
/- C93: group calls never crash, whatever was received before. -/
set_option linter.unusedSimpArgs false
namespace Verif

/-! ### Records as the library makes them -/

/-- A record with at least one state whose skipped keys all have the right lengths. -/
structure GRec.Fit (r : GRec) : Prop where
  some : r ≠ []
  keys : ∀ s ∈ r, ∀ k ∈ s.keys, k.iv.length = 16 ∧ k.cipherKey.length = 32

theorem removeKey_found {s : SKState} {it : UInt32} (h : s.hasKey it = true) : ∃ k ∈ s.keys, (s.removeKey it).1 = some k := by
  simp only [SKState.hasKey, List.any_eq_true] at h
  obtain ⟨x, hx, hp⟩ := h
  simp only [SKState.removeKey]
  cases hi : s.keys.findIdx? (fun k => k.iteration == it) with
  | none => rw [List.findIdx?_eq_none_iff] at hi; rw [hi x hx] at hp; cases hp
  | some i =>
    obtain ⟨hl, -⟩ := List.findIdx?_eq_some_iff_getElem.1 hi
    exact ⟨s.keys[i], List.getElem_mem .., by simp [hl]⟩

theorem groupSkip_fit (C : Crypto) (it : UInt32) : ∀ (n : Nat) (s : SKState) (ck : SChainKey), (∀ k ∈ s.keys, k.iv.length = 16 ∧ k.cipherKey.length = 32) →
    (∃ ck', (groupSkip C it n s ck).1 = .ok ck') ∧ ∀ k ∈ (groupSkip C it n s ck).2.keys, k.iv.length = 16 ∧ k.cipherKey.length = 32
  | 0, _, _, h => ⟨⟨_, rfl⟩, h⟩
  | n + 1, s, ck, h => by
    simp only [groupSkip, msgKey_eq]
    split
    · refine groupSkip_fit C it n _ _ ?_
      intro k hk
      have : k ∈ s.keys ++ [groupKey C ck] := by
        simp only [SKState.addKey] at hk
        split at hk
        · exact List.mem_of_mem_drop hk
        · exact hk
      rcases List.mem_append.1 this with h1 | h1
      · exact h k h1
      · rw [List.mem_singleton] at h1; subst h1; exact ⟨groupKey_iv C ck, groupKey_cipherKey C ck⟩
    · exact ⟨⟨_, rfl⟩, h⟩

/-- The key of a message: an error or a key of the right lengths, never a crash, never nil. -/
theorem getSenderKey_fit (C : Crypto) (s : SKState) (it : UInt32) (h : ∀ k ∈ s.keys, k.iv.length = 16 ∧ k.cipherKey.length = 32) :
    ((∃ e, (getSenderKey C s it).1 = .err e) ∨ ∃ mk, (getSenderKey C s it).1 = .ok (some mk) ∧ mk.iv.length = 16 ∧ mk.cipherKey.length = 32) ∧
    ∀ k ∈ (getSenderKey C s it).2.keys, k.iv.length = 16 ∧ k.cipherKey.length = 32 := by
  unfold getSenderKey
  split
  · split
    · rename_i hk
      obtain ⟨k, hk1, hk2⟩ := removeKey_found hk
      refine ⟨.inr ⟨k, by simp [hk2], h k hk1⟩, ?_⟩
      intro x hx
      simp only [SKState.removeKey] at hx
      split at hx
      · exact h x hx
      · exact h x (List.mem_of_mem_eraseIdx hx)
    · exact ⟨.inl ⟨_, rfl⟩, h⟩
  · split
    · exact ⟨.inl ⟨_, rfl⟩, h⟩
    · obtain ⟨⟨ck', h1⟩, h2⟩ := groupSkip_fit C it (it - s.chain.iteration).toNat s s.chain h
      generalize groupSkip C it (it - s.chain.iteration).toNat s s.chain = x at *
      obtain ⟨res, s1⟩ := x
      simp only at h1
      subst h1
      exact ⟨.inr ⟨groupKey C ck', by simp [msgKey_eq], groupKey_iv C ck', groupKey_cipherKey C ck'⟩, h2⟩

/-- When opening a message with a record crashes. -/
theorem groupDecrypt_panic_iff (C : Crypto) (S : Ser SKStruct) (hS : StdSK S) {r : GRec} (h : r.Fit) (m : SenderKeyMsg) :
    (groupDecrypt C S (some r) m).1 = .panic ↔
      (∃ s body mk, r.find? (fun s => s.keyId == m.keyId) = some s ∧ m.serialize S = .ok body ∧ C.verify s.signing.pub body m.sig = true ∧
        (getSenderKey C s m.iteration).1 = .ok (some mk)) ∧
      16 ≤ (m.ciphertext.getD []).length ∧ (m.ciphertext.getD []).length % 16 ≠ 0 := by
  cases r with
  | nil => exact absurd rfl h.some
  | cons s0 rest =>
    obtain ⟨body, hb⟩ : ∃ b, m.serialize S = .ok b := hS.ser_ok _
    simp only [groupDecrypt, hb]
    cases hf : (s0 :: rest).find? (fun s => s.keyId == m.keyId) with
    | none => simp
    | some s =>
      have hfit := (getSenderKey_fit C s m.iteration (h.keys s (List.mem_of_find?_eq_some hf))).1
      simp only
      cases hv : C.verify s.signing.pub body m.sig with
      | false => simp [hv]
      | true =>
        simp only [Bool.true_eq_false, if_false]
        generalize hg : getSenderKey C s m.iteration = g at *
        obtain ⟨g, s'⟩ := g
        rcases hfit with ⟨e, he⟩ | ⟨mk, he, h1, h2⟩
        · simp only at he
          subst he
          simp only
          constructor
          · intro hp; cases hp
          · rintro ⟨⟨s1, b1, mk1, h1, -, -, h4⟩, -⟩
            cases h1
            rw [hg] at h4
            cases h4
        · simp only at he
          subst he
          simp only
          have hc := (C28_decrypt_panics_iff C mk.iv mk.cipherKey (m.ciphertext.getD []) h1 (.inr (.inr h2))).1
          generalize decryptCbc C (some mk.iv) mk.cipherKey (m.ciphertext.getD []) = g at hc ⊢
          constructor
          · intro hp
            refine ⟨⟨s, body, mk, rfl, rfl, hv, by rw [hg]⟩, hc.1 ?_⟩
            cases g with
            | panic => rfl
            | ok x => cases hp
            | err e => cases hp
          · intro hj
            have := hc.2 hj.2
            subst this
            rfl

theorem GRec.Fit.modify {r : GRec} (h : r.Fit) (C : Crypto) (p : SKState → Bool) {s : SKState} (hs : s ∈ r) (it : UInt32) :
    GRec.Fit (modifyFirst p (fun _ => (getSenderKey C s it).2) r) := by
  refine ⟨?_, ?_⟩
  · intro h0
    have := congrArg List.length h0
    rw [length_modifyFirst] at this
    exact h.some (List.length_eq_zero_iff.1 this)
  · intro x hx
    rcases mem_modifyFirst hx with h1 | ⟨a, -, -, rfl⟩
    · exact h.keys x h1
    · exact (getSenderKey_fit C s it (h.keys s hs)).2

/-- What a call of `Decrypt` leaves in memory. -/
theorem groupDecrypt_fit (C : Crypto) (S : Ser SKStruct) {r : GRec} (h : r.Fit) (m : SenderKeyMsg) :
    ∃ r', (groupDecrypt C S (some r) m).2.1 = some r' ∧ r'.Fit := by
  cases r with
  | nil => exact absurd rfl h.some
  | cons s0 rest =>
    simp only [groupDecrypt]
    cases hf : (s0 :: rest).find? (fun s => s.keyId == m.keyId) with
    | none => exact ⟨_, rfl, h⟩
    | some s =>
      simp only
      cases m.serialize S with
      | err e => exact ⟨_, rfl, h⟩
      | panic => exact ⟨_, rfl, h⟩
      | ok body =>
        simp only
        split
        · exact ⟨_, rfl, h⟩
        · have hm := h.modify C (fun s => s.keyId == m.keyId) (List.mem_of_find?_eq_some hf) m.iteration
          generalize getSenderKey C s m.iteration = g at hm
          obtain ⟨g, s'⟩ := g
          rcases g with (_ | mk) | e | _
          · exact ⟨_, rfl, hm⟩
          · simp only
            cases decryptCbc C (some mk.iv) mk.cipherKey (m.ciphertext.getD []) <;> exact ⟨_, rfl, hm⟩
          · exact ⟨_, rfl, hm⟩
          · exact ⟨_, rfl, hm⟩

theorem GRec.Fit.next {C : Crypto} {s : SKState} {rest : GRec} (h : GRec.Fit (s :: rest)) : GRec.Fit ({ s with chain := s.chain.next C } :: rest) := by
  refine ⟨by simp, ?_⟩
  intro x hx
  rcases List.mem_cons.1 hx with rfl | hx
  · exact h.keys s (List.mem_cons_self ..)
  · exact h.keys x (List.mem_cons_of_mem _ hx)

/-- `Encrypt` with a record: it succeeds if the first state has its private key and crashes if not. -/
theorem groupEncrypt_fit (C : Crypto) (S : Ser SKStruct) (hS : StdSK S) (rand : Arr 64) {r : GRec} (h : r.Fit) (pt : Bytes) :
    ∃ s rest, r = s :: rest ∧ ((s.signing.priv = none → (groupEncrypt C S rand (some r) pt).1 = .panic) ∧
      (s.signing.priv ≠ none → ∃ m, (groupEncrypt C S rand (some r) pt).1 = .ok m)) ∧
    ∃ r', (groupEncrypt C S rand (some r) pt).2.1 = some r' ∧ r'.Fit := by
  cases r with
  | nil => exact absurd rfl h.some
  | cons s rest =>
    refine ⟨s, rest, rfl, ?_⟩
    have hkl := groupKey_cipherKey C s.chain
    have hiv := groupKey_iv C s.chain
    obtain ⟨body, hb⟩ : ∃ body, encryptCbc C none (some (groupKey C s.chain).iv) (groupKey C s.chain).cipherKey pt = .ok body := by
      rw [encryptCbc_some C none _ _ _ ((aesKeyOk_iff _).2 (.inr (.inr hkl)))]
      exact ⟨_, cbcCrypt_ok _ _ _ _ hiv (pad_length pt)⟩
    simp only [groupEncrypt, msgKey_eq, Res.bind_ok, hb, newSenderKeyMessage]
    cases hp : s.signing.priv with
    | none => exact ⟨⟨fun _ => rfl, fun h => absurd rfl h⟩, _, rfl, h⟩
    | some k =>
      obtain ⟨content, hc⟩ : ∃ c, (⟨UInt32.ofNat currentVersion, s.keyId, (groupKey C s.chain).iteration, some body, none⟩ : SenderKeyMsg).serialize S
        = .ok c := hS.ser_ok _
      simp only [hc, Res.map_ok]
      refine ⟨⟨fun h => ?_, fun _ => ⟨_, rfl⟩⟩, _, rfl, h.next⟩
      cases h

theorem groupProcess_fit {o : Option GRec} (h : ∀ r, o = some r → r.Fit) (m : SKDMsg) : GRec.Fit (groupProcess o m) := by
  have e : groupMaxMessageKeys = 2000 := rfl
  refine ⟨?_, ?_⟩
  · intro h0
    have := congrArg List.length h0
    simp only [groupProcess, GRec.addState] at this
    split at this
    · simp only [List.length_drop, List.length_append, List.length_singleton, List.length_nil] at this
      simp only [List.length_append, List.length_singleton] at *
      omega
    · simp at this
  · intro x hx
    have hx' : x ∈ (o.getD []) ++ [⟨[], m.id, ⟨m.iteration, m.chainKey.getD []⟩, ⟨m.signatureKey, none⟩⟩] := by
      simp only [groupProcess, GRec.addState] at hx
      split at hx
      · exact List.mem_of_mem_drop hx
      · exact hx
    rcases List.mem_append.1 hx' with h3 | h3
    · cases o with
      | none => simp at h3
      | some r => exact (h r rfl).keys x h3
    · rw [List.mem_singleton] at h3; subst h3; simp

theorem groupCreate_fit (C : Crypto) (d : GroupDraws) (o : Option GRec) :
    (groupCreate C d o).1 ≠ .panic ∧ (d.signing ≠ none → ∃ m, (groupCreate C d o).1 = .ok m) ∧ ∀ r, (groupCreate C d o).2 = some r → r.Fit := by
  have key : (groupCreate C d o) = (match generateKeyPair C d.signing with
        | .err e => (.err e, none)
        | .panic => (.panic, none)
        | .ok kp => (.ok (newSKDM d.id 0 d.chain.bytes kp.pub), some (GRec.setState d.id 0 d.chain.bytes kp))) ∨
      ∃ m, groupCreate C d o = (.ok m, none) := by
    rcases o with _ | (_ | ⟨s, l⟩)
    · exact .inl rfl
    · exact .inl rfl
    · exact .inr ⟨_, rfl⟩
  rcases key with h | ⟨m, h⟩ <;> rw [h]
  · cases d.signing with
    | none => simp [generateKeyPair]
    | some k =>
      simp only [generateKeyPair]
      refine ⟨by simp, fun _ => ⟨_, rfl⟩, ?_⟩
      intro r hr
      cases hr
      exact ⟨by simp [GRec.setState], by simp [GRec.setState]⟩
  · exact ⟨by simp, fun _ => ⟨_, rfl⟩, by simp⟩

theorem GRec.Fit.reloaded {r : GRec} (h : r.Fit) : GRec.Fit (r.map SKState.reloaded) := by
  refine ⟨by simpa using h.some, ?_⟩
  intro s hs
  obtain ⟨x, hx, rfl⟩ := List.mem_map.1 hs
  exact h.keys x hx

/-! ### A store of serialised records -/

/-- Every stored record loads and is fit. -/
def GStore.Fit (st : GStore) : Prop := ∀ n, st.recs n ≠ none → ∃ r, st.load n = .ok (some r) ∧ r.Fit

theorem GStore.Fit.load {st : GStore} (h : st.Fit) (n : SenderKeyName) :
    (st.recs n = none ∧ st.load n = .ok none) ∨ ∃ r, st.recs n ≠ none ∧ st.load n = .ok (some r) ∧ r.Fit := by
  cases hr : st.recs n with
  | none => exact .inl ⟨rfl, by simp [GStore.load, hr]⟩
  | some x =>
    obtain ⟨r, h1, h2⟩ := h n (by simp [hr])
    exact .inr ⟨r, by simp, h1, h2⟩

theorem GStore.Fit.save {st : GStore} (h : st.Fit) (n : SenderKeyName) {r : GRec} (hr : r.Fit) : (st.save n r).Fit := by
  intro n' hn
  by_cases he : n' = n
  · subst he
    exact ⟨_, GStore.load_save st n' r, hr.reloaded⟩
  · rw [GStore.load_save_ne st r he]
    exact h n' (by simpa [GStore.save, he] using hn)

theorem GOp.apply_fit (C : Crypto) (S : Ser SKStruct) {st : GStore} (h : st.Fit) (op : GOp) : (op.apply C S st).Fit := by
  have get : ∀ {n r}, st.load n = .ok (some r) → r.Fit := by
    intro n r hl
    rcases h.load n with ⟨-, h1⟩ | ⟨r', -, h1, h2⟩
    · rw [h1] at hl; cases hl
    · rw [h1] at hl; cases hl; exact h2
  rcases GOp.apply_cases C S st op with he | ⟨n, s, rest, pt, rand, -, hl, he⟩ | ⟨n, m, r, s, mk, s', -, hl, hf, hg, he⟩ |
      ⟨n, m, o, -, hl, he⟩ | ⟨n, d, kp, -, hl, he⟩ <;> rw [he]
  · exact h
  · exact h.save n (get hl).next
  · have := (get hl).modify C (fun s => s.keyId == m.keyId) (List.mem_of_find?_eq_some hf) m.iteration
    rw [hg] at this
    exact h.save n this
  · exact h.save n (groupProcess_fit (by rintro r rfl; exact get hl) m)
  · exact h.save n ⟨by simp [GRec.setState], by simp [GRec.setState]⟩

theorem gRun_fit (C : Crypto) (S : Ser SKStruct) : ∀ (ops : List GOp) {st : GStore}, st.Fit → (gRun C S st ops).Fit
  | [], _, h => h
  | op :: ops, _, h => gRun_fit C S ops (GOp.apply_fit C S h op)

/-- **C93.** After any history of group calls that began with an empty store, whatever distribution messages and messages were handed in: `Process` succeeds; `Create`
succeeds, or reports that the random source failed; `Encrypt` under a name with a record succeeds; `Decrypt` under a name with a record crashes only if the message has a
ciphertext longer than a block and no whole number of blocks, and carries a valid signature by the key stored for its key id.  (What is missing are these cases, and names
without a record.) -/
theorem C93_group_no_crash_partial (C : Crypto) (S : Ser SKStruct) (hS : StdSK S) (ops : List GOp) :
    let st := gRun C S GStore.empty ops
    (∀ n m, (st.process n m).1 = .ok ()) ∧
    (∀ n d, (st.create C d n).1 ≠ .panic ∧ (d.signing ≠ none → ∃ m, (st.create C d n).1 = .ok m)) ∧
    (∀ n pt rand, st.recs n ≠ none → ∃ m, (st.encrypt C S rand n pt).1 = .ok m) ∧
    (∀ n m, st.recs n ≠ none → (st.decrypt C S n m).1 = .panic →
      (16 ≤ (m.ciphertext.getD []).length ∧ (m.ciphertext.getD []).length % 16 ≠ 0) ∧
      ∃ r s body, st.load n = .ok (some r) ∧ s ∈ r ∧ s.keyId = m.keyId ∧ m.serialize S = .ok body ∧ C.verify s.signing.pub body m.sig = true) := by
  intro st
  have hw : st.Fit := gRun_fit C S ops (fun n hn => absurd rfl hn)
  refine ⟨fun n m => ?_, fun n d => ?_, fun n pt rand hn => ?_, fun n m hn hp => ?_⟩
  · rcases hw.load n with ⟨-, h1⟩ | ⟨r, -, h1, -⟩ <;> simp [GStore.process, h1]
  · have key : ∀ o, st.load n = .ok o → (st.create C d n).1 = (groupCreate C d o).1 := by
      intro o ho
      simp only [GStore.create, ho]
      obtain ⟨a, b⟩ := groupCreate C d o
      cases b <;> rfl
    rcases hw.load n with ⟨-, h1⟩ | ⟨r, -, h1, -⟩ <;> rw [key _ h1] <;>
      exact ⟨(groupCreate_fit C d _).1, (groupCreate_fit C d _).2.1⟩
  · rcases hw.load n with ⟨h1, -⟩ | ⟨r, -, h1, hf⟩
    · exact absurd h1 hn
    · cases r with
      | nil => exact absurd rfl hf.some
      | cons s rest =>
        obtain ⟨k, hk⟩ := GStore.loaded h1 s (List.mem_cons_self ..)
        obtain ⟨m, -, -, hm, -⟩ := GStore.encrypt_ok C S hS st n s rest k h1 hk pt rand
        exact ⟨m, hm⟩
  · rcases hw.load n with ⟨h1, -⟩ | ⟨r, -, h1, hf⟩
    · exact absurd h1 hn
    · have hd : (st.decrypt C S n m).1 = (groupDecrypt C S (some r) m).1 := by
        simp only [GStore.decrypt, h1]
        obtain ⟨a, b, c⟩ := groupDecrypt C S (some r) m
        cases b <;> cases c <;> rfl
      rw [hd, groupDecrypt_panic_iff C S hS hf m] at hp
      obtain ⟨⟨s, body, mk, h2, h3, h4, -⟩, hj⟩ := hp
      have := List.find?_some h2
      exact ⟨hj, r, s, body, h1, List.mem_of_find?_eq_some h2, by simpa using this, h3, h4⟩

/-! ### The store that hands out its objects -/

/-- A history with the store of tests/stores.go. -/
def gLiveRun (C : Crypto) (S : Ser SKStruct) (lv : GLiveStore) (ops : List GOp) : GLiveStore := ops.foldl (fun lv op => (lv.call C S op).2) lv

theorem GLiveStore.call_fit (C : Crypto) (S : Ser SKStruct) (hS : StdSK S) {lv : GLiveStore} (h : ∀ n r, lv.recs n = some r → r.Fit) (op : GOp) :
    ∀ n r, (lv.call C S op).2.recs n = some r → r.Fit := by
  have put : ∀ n o, (∀ r, o = some r → r.Fit) → ∀ n' r, (lv.set n o).recs n' = some r → r.Fit := by
    intro n o ho n' r hr
    simp only [GLiveStore.set] at hr
    split at hr
    · exact ho r hr
    · exact h n' r hr
  cases op with
  | encrypt n pt rand =>
    refine put n _ ?_
    intro r hr
    cases hl : lv.recs n with
    | none => rw [hl] at hr; cases hr
    | some r0 =>
      rw [hl] at hr
      obtain ⟨-, -, -, -, r', h1, h2⟩ := groupEncrypt_fit C S hS rand (h n r0 hl) pt
      rw [h1] at hr; cases hr; exact h2
  | decrypt n m =>
    refine put n _ ?_
    intro r hr
    cases hl : lv.recs n with
    | none => rw [hl] at hr; cases hr
    | some r0 =>
      rw [hl] at hr
      obtain ⟨r', h1, h2⟩ := groupDecrypt_fit C S (h n r0 hl) m
      rw [h1] at hr; cases hr; exact h2
  | process n m =>
    refine put n _ ?_
    intro r hr
    cases hr
    exact groupProcess_fit (h n) m
  | create n d =>
    simp only [GLiveStore.call]
    have := (groupCreate_fit C d (lv.recs n)).2.2
    generalize groupCreate C d (lv.recs n) = g at this
    obtain ⟨a, b⟩ := g
    cases b with
    | none => exact h
    | some r' =>
      refine put n _ ?_
      intro r hr
      cases hr
      exact this r' rfl

/-- **C93 (store that hands out the stored object).** The same, except that `Encrypt` needs more: the first state of the record must hold a private key, which a record
made by `Process` does not. -/
theorem C93_live_no_crash_partial (C : Crypto) (S : Ser SKStruct) (hS : StdSK S) (ops : List GOp) :
    let lv := gLiveRun C S ⟨fun _ => none⟩ ops
    (∀ n d, (lv.call C S (.create n d)).1 ≠ .created .panic) ∧
    (∀ n pt rand r, lv.recs n = some r → ∃ s rest, r = s :: rest ∧
      ((∃ m, (lv.call C S (.encrypt n pt rand)).1 = .encrypted (.ok m)) ∨
        (lv.call C S (.encrypt n pt rand)).1 = .encrypted .panic ∧ s.signing.priv = none)) ∧
    (∀ n m r, lv.recs n = some r → (lv.call C S (.decrypt n m)).1 = .decrypted .panic →
      (16 ≤ (m.ciphertext.getD []).length ∧ (m.ciphertext.getD []).length % 16 ≠ 0) ∧
      ∃ s body, s ∈ r ∧ s.keyId = m.keyId ∧ m.serialize S = .ok body ∧ C.verify s.signing.pub body m.sig = true) := by
  intro lv
  have hw : ∀ n r, lv.recs n = some r → r.Fit := by
    suffices ∀ (ops : List GOp) (lv : GLiveStore), (∀ n r, lv.recs n = some r → r.Fit) → ∀ n r, (gLiveRun C S lv ops).recs n = some r → r.Fit from
      this ops _ (fun n r hr => by cases hr)
    intro ops
    induction ops with
    | nil => intro lv h; exact h
    | cons op ops ih => intro lv h; exact ih _ (GLiveStore.call_fit C S hS h op)
  refine ⟨fun n d => ?_, fun n pt rand r hr => ?_, fun n m r hr hp => ?_⟩
  · have := (groupCreate_fit C d (lv.recs n)).1
    simp only [GLiveStore.call]
    generalize groupCreate C d (lv.recs n) = g at this
    obtain ⟨a, b⟩ := g
    cases b <;> simpa using this
  · obtain ⟨s, rest, h1, ⟨h2, h3⟩, -⟩ := groupEncrypt_fit C S hS rand (hw n r hr) pt
    refine ⟨s, rest, h1, ?_⟩
    simp only [GLiveStore.call, hr, GAnswer.encrypted.injEq]
    cases hp : s.signing.priv with
    | none => exact .inr ⟨h2 hp, rfl⟩
    | some k => exact .inl (h3 (by simp [hp]))
  · simp only [GLiveStore.call, hr, GAnswer.decrypted.injEq] at hp
    rw [groupDecrypt_panic_iff C S hS (hw n r hr) m] at hp
    obtain ⟨⟨s, body, mk, h2, h3, h4, -⟩, hj⟩ := hp
    have := List.find?_some h2
    exact ⟨hj, s, body, List.mem_of_find?_eq_some h2, by simpa using this, h3, h4⟩

/-! ### What is missing -/

/-- **C93 (what is missing, 1).** `Encrypt` and `Decrypt` under a name without a record crash instead of returning an error, whatever the message is. -/
theorem C93_no_record_false (C : Crypto) (S : Ser SKStruct) (st : GStore) (lv : GLiveStore) (n : SenderKeyName) :
    (st.recs n = none → (∀ pt rand, (st.encrypt C S rand n pt).1 = .panic) ∧ ∀ m, (st.decrypt C S n m).1 = .panic) ∧
    (lv.recs n = none → (∀ pt rand, (lv.call C S (.encrypt n pt rand)).1 = .encrypted .panic) ∧ ∀ m, (lv.call C S (.decrypt n m)).1 = .decrypted .panic) := by
  constructor
  · intro h
    have hl : st.load n = .ok none := by simp [GStore.load, h]
    exact ⟨fun pt rand => by simp [GStore.encrypt, hl, groupEncrypt], fun m => by simp [GStore.decrypt, hl, groupDecrypt]⟩
  · intro h
    exact ⟨fun pt rand => by simp [GLiveStore.call, h, groupEncrypt], fun m => by simp [GLiveStore.call, h, groupDecrypt]⟩

/-- **C93 (what is missing, 2).** A sender crashes every member of the group with one signed message whose ciphertext is no whole number of blocks; with a store of
serialised records nothing is stored, so the same message crashes the member again whenever it is processed. -/
theorem C93_jagged_false (C : Crypto) (S : Ser SKStruct) (hS : StdSK S) (st : GStore) (n : SenderKeyName) (r : GRec) (hl : st.load n = .ok (some r)) (hf : r.Fit)
    (s : SKState) (m : SenderKeyMsg) (hs : r.find? (fun s => s.keyId == m.keyId) = some s) (hi : m.iteration = s.chain.iteration)
    (body : Bytes) (hb : m.serialize S = .ok body) (hv : C.verify s.signing.pub body m.sig = true)
    (hlen : 16 ≤ (m.ciphertext.getD []).length) (hmod : (m.ciphertext.getD []).length % 16 ≠ 0) : st.decrypt C S n m = (.panic, st) := by
  have hk : (getSenderKey C s m.iteration).1 = .ok (some (groupKey C s.chain)) := by
    unfold getSenderKey
    rw [hi, if_neg (by simp [UInt32.lt_irrefl]), if_neg (by rw [UInt32.sub_self]; decide), UInt32.sub_self]
    simp [groupSkip, msgKey_eq]
  have hp := (groupDecrypt_panic_iff C S hS hf m).2 ⟨⟨s, body, _, hs, hb, hv, hk⟩, hlen, hmod⟩
  rcases groupDecrypt_cases C S r m with ⟨res, r', he, -⟩ | ⟨s1, b1, mk, s', pt, -, -, -, -, -, he⟩
  · rw [he] at hp
    simp only at hp
    subst hp
    simp only [GStore.decrypt, hl, he]
  · rw [he] at hp; cases hp

/-- **C93 (what is missing, 3).** With a store that hands out the stored object, a member who has only processed somebody's distribution message crashes when encrypting
under that name; with a store of serialised records the same call returns a message (signed with an all-zero key). -/
theorem C93_process_encrypt_false (C : Crypto) (S : Ser SKStruct) (hS : StdSK S) (n : SenderKeyName) (skdm : SKDMsg) (pt : Bytes) (rand : Arr 64) :
    (gLiveRun C S ⟨fun _ => none⟩ [.process n skdm] |>.call C S (.encrypt n pt rand)).1 = .encrypted .panic ∧
    ∃ m, (GStore.call C S (gRun C S GStore.empty [.process n skdm]) (.encrypt n pt rand)).1 = .encrypted (.ok m) := by
  constructor
  · have hr : (gLiveRun C S ⟨fun _ => none⟩ [.process n skdm]).recs n = some (groupProcess none skdm) := by
      simp [gLiveRun, GLiveStore.call, GLiveStore.set]
    have hg : groupProcess none skdm = [⟨[], skdm.id, ⟨skdm.iteration, skdm.chainKey.getD []⟩, ⟨skdm.signatureKey, none⟩⟩] := by
      simp [groupProcess, GRec.addState, groupMaxMessageKeys]
    obtain ⟨s, rest, h1, ⟨h2, -⟩, -⟩ := groupEncrypt_fit C S hS rand (groupProcess_fit (o := none) (by simp) skdm) pt
    have h1' := h1
    rw [hg] at h1'
    simp only [List.cons.injEq] at h1'
    simp only [GLiveStore.call, hr]
    rw [h2 (by rw [← h1'.1])]
  · obtain ⟨-, -, h3, -⟩ := C93_group_no_crash_partial C S hS [.process n skdm]
    obtain ⟨m, hm⟩ := h3 n pt rand (by simp [gRun, GOp.apply, GStore.process, GStore.load, GStore.empty, GStore.save])
    exact ⟨m, by simp only [GStore.call, hm]⟩

/-! ### Concrete cases -/

section
open Toy
set_option maxRecDepth 100000

/-- A history: a member processes a distribution message, opens the first message and gets the second twice. -/
def gMember : List GOp := [.process gName gSkdm, .decrypt gName gMsg0, .decrypt gName gMsg0]

example : (gRun C protoSK GStore.empty gMember).recs gName ≠ none ∧ ((gRun C protoSK GStore.empty gMember).decrypt C protoSK gName gMsg0).1 ≠ .panic := by decide +kernel

/-- The sender signs a ciphertext of 17 bytes: every member crashes. -/
def gJagged : SenderKeyMsg := match newSenderKeyMessage C protoSK gSkdm.id 0 (List.replicate 17 0) (some (clamp (key 3))) gRand with
  | .ok m => m
  | _ => gMsg0

example : (gJagged.ciphertext.getD []).length = 17 ∧ ((gRun C protoSK GStore.empty [.process gName gSkdm]).decrypt C protoSK gName gJagged).1 = .panic ∧
    ((gRun C protoSK GStore.empty [.process gName gSkdm]).decrypt C protoSK gName gMsg0).1 = .ok [1, 2, 3] := by decide +kernel
end

end Verif
