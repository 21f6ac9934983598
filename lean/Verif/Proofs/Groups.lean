import Verif.Model.Groups
import Verif.Props.Window
import Verif.Props.Serialise
import Verif.Props.Wire
/- Group ratchet: refinement of the receive window, serialisation of sender key records, store steps. -/
set_option linter.unusedSimpArgs false
namespace Verif

/-! ### Sender chain keys -/

theorem msgKey_ok (C : Crypto) (k : SChainKey) :
    ∃ mk, k.msgKey C = .ok mk ∧ mk.iteration = k.iteration ∧ mk.iv.length = 16 ∧ mk.cipherKey.length = 32 := by
  unfold SChainKey.msgKey newSMKey
  obtain ⟨d, hd, hl⟩ := deriveSecrets_ok C (k.derivative C [0x01]) none (ascii "WhisperGroup") (n := 48) (by omega)
  simp only [hd, Res.bind_ok, split]
  rw [if_neg (by omega)]
  refine ⟨_, rfl, rfl, ?_, ?_⟩ <;> simp [copyInto_length, hl]

/-- The message key of a chain position. -/
def groupKey (C : Crypto) (k : SChainKey) : SMKey :=
  match k.msgKey C with
  | .ok mk => mk
  | _ => ⟨k.iteration, [], [], []⟩

theorem msgKey_eq (C : Crypto) (k : SChainKey) : k.msgKey C = .ok (groupKey C k) := by
  obtain ⟨mk, h, -⟩ := msgKey_ok C k
  simp [groupKey, h]

@[simp] theorem groupKey_iteration (C : Crypto) (k : SChainKey) : (groupKey C k).iteration = k.iteration := by
  obtain ⟨mk, h, h2, -⟩ := msgKey_ok C k
  simp [groupKey, h, h2]

theorem groupKey_iv (C : Crypto) (k : SChainKey) : (groupKey C k).iv.length = 16 := by
  obtain ⟨mk, h, h2, h3, -⟩ := msgKey_ok C k
  simp [groupKey, h, h3]

theorem groupKey_cipherKey (C : Crypto) (k : SChainKey) : (groupKey C k).cipherKey.length = 32 := by
  obtain ⟨mk, h, h2, h3, h4⟩ := msgKey_ok C k
  simp [groupKey, h, h4]

/-- The sender chain key `n` steps after `k`. -/
def SChainKey.iter (C : Crypto) : Nat → SChainKey → SChainKey
  | 0, k => k
  | n + 1, k => (SChainKey.iter C n k).next C

theorem SChainKey.iter_succ (C : Crypto) (n : Nat) (k : SChainKey) : k.iter C (n + 1) = (k.next C).iter C n := by
  induction n with
  | zero => rfl
  | succ n ih => show (k.iter C (n + 1)).next C = _; rw [ih]; rfl

theorem SChainKey.iter_add (C : Crypto) (m n : Nat) (k : SChainKey) : k.iter C (m + n) = (k.iter C m).iter C n := by
  induction n with
  | zero => rfl
  | succ n ih => rw [← Nat.add_assoc]; show (k.iter C (m + n)).next C = _; rw [ih]; rfl

@[simp] theorem snext_iteration (C : Crypto) (k : SChainKey) : (k.next C).iteration = k.iteration + 1 := rfl

theorem SChainKey.iter_iteration (C : Crypto) (n : Nat) (k : SChainKey) :
    (k.iter C n).iteration = k.iteration + UInt32.ofNat n := by
  induction n with
  | zero => simp [SChainKey.iter]
  | succ n ih =>
    simp only [SChainKey.iter, snext_iteration, ih]
    rw [UInt32.ofNat_add, ← UInt32.add_assoc]; rfl

/-! ### The skip loop -/

theorem addKey_keys (s : SKState) (k : SMKey) (h : s.keys.length ≤ 2000) :
    (s.addKey k).keys = Window.lastN 2000 (s.keys ++ [k]) := by
  have e : groupMaxMessageKeys = 2000 := rfl
  simp only [SKState.addKey, Window.lastN, List.length_append, List.length_singleton]
  split
  · rw [show s.keys.length + 1 - 2000 = 1 by omega]
  · rw [show s.keys.length + 1 - 2000 = 0 by omega]; rfl

theorem addKey_eq (s : SKState) (k : SMKey) (h : s.keys.length ≤ 2000) :
    s.addKey k = { s with keys := Window.lastN 2000 (s.keys ++ [k]) } := by
  rw [← addKey_keys s k h]; rfl

theorem groupSkip_eq (C : Crypto) (it : UInt32) (n : Nat) (s : SKState) (ck : SChainKey) (hb : s.keys.length ≤ 2000)
    (hle : ck.iteration ≤ it) (hn : n = (it - ck.iteration).toNat) :
    groupSkip C it n s ck = (.ok (ck.iter C n), { s with keys := Window.lastN 2000 (s.keys ++ (List.range n).map (fun i => groupKey C (ck.iter C i))) }) := by
  induction n generalizing s ck with
  | zero => simp [groupSkip, SChainKey.iter, lastN_of_le hb]
  | succ n ih =>
    have hsub : (it - ck.iteration).toNat = it.toNat - ck.iteration.toNat := by rw [UInt32.toNat_sub_of_le _ _ hle]
    have hle' : ck.iteration.toNat ≤ it.toNat := hle
    have hlt : ck.iteration < it := by rw [UInt32.lt_iff_toNat_lt]; omega
    have hb2 : it.toNat < 2 ^ 32 := it.toNat_lt
    have hnext : (ck.iteration + 1).toNat = ck.iteration.toNat + 1 := by rw [UInt32.toNat_add]; simp; omega
    have hle2 : (ck.next C).iteration ≤ it := by rw [UInt32.le_iff_toNat_le]; simp only [snext_iteration]; omega
    simp only [groupSkip, if_pos hlt, msgKey_eq]
    rw [addKey_eq s _ hb, ih _ (ck.next C) (lastN_length _ _) hle2
      (by rw [UInt32.toNat_sub_of_le _ _ hle2]; simp only [snext_iteration]; omega)]
    rw [SChainKey.iter_succ]
    simp only [lastN_lastN_append]
    rw [List.range_succ_eq_map]
    simp only [List.map_cons, List.map_map, List.append_assoc, List.singleton_append, Prod.mk.injEq, true_and]
    congr 4
    apply List.map_congr_left
    intro i _
    simp [SChainKey.iter_succ]

/-! ### Refinement -/

/-- Limits of a group receiving chain: 2000 ahead, 2000 remembered. -/
def groupLimits : Window.Limits := ⟨2000, 2000⟩

/-- The state `s`, whose chain started as `ck0`, is in window `w`.  Positions are absolute: the chain key
`ck0` itself is at position `ck0.iteration`. -/
structure GRefines (C : Crypto) (ck0 : SChainKey) (s : SKState) (w : Window) : Prop where
  start : ck0.iteration.toNat ≤ w.next
  key : s.chain = ck0.iter C (w.next - ck0.iteration.toNat)
  skipped : s.keys = w.skipped.map (fun p => groupKey C (ck0.iter C (p - ck0.iteration.toNat)))
  bound : w.skipped.length ≤ 2000
  below : ∀ p ∈ w.skipped, p < w.next
  above : ∀ p ∈ w.skipped, ck0.iteration.toNat ≤ p
  nodup : w.skipped.Nodup

theorem group_iteration (C : Crypto) (ck0 : SChainKey) {p : Nat} (h : ck0.iteration.toNat ≤ p) :
    (ck0.iter C (p - ck0.iteration.toNat)).iteration.toNat = Window.counter p := by
  rw [SChainKey.iter_iteration, UInt32.toNat_add, ofNat_toNat_mod]
  simp only [Window.counter]
  omega

/-- One receive step. -/
theorem getSenderKey_refines {C : Crypto} {ck0 : SChainKey} {s : SKState} {w : Window} (h : GRefines C ck0 s w) (it : UInt32) :
    match Window.accept groupLimits w it.toNat with
    | some (p, w') => ∃ s', getSenderKey C s it = (.ok (some (groupKey C (ck0.iter C (p - ck0.iteration.toNat)))), s') ∧
        GRefines C ck0 s' w' ∧ s'.keyId = s.keyId ∧ s'.signing = s.signing ∧ ck0.iteration.toNat ≤ p
    | none => getSenderKey C s it =
        (.err (if it.toNat < Window.counter w.next then .oldCounter else .tooFarFuture), s) := by
  have hidx : s.chain.iteration.toNat = Window.counter w.next := by rw [h.key]; exact group_iteration C ck0 h.start
  unfold Window.accept getSenderKey
  by_cases hlt : it.toNat < Window.counter w.next
  · have hlt' : it < s.chain.iteration := by rw [UInt32.lt_iff_toNat_lt, hidx]; exact hlt
    rw [if_pos hlt, if_pos hlt']
    have hpred : ∀ p ∈ w.skipped, ((groupKey C (ck0.iter C (p - ck0.iteration.toNat))).iteration == it) = decide (Window.counter p = it.toNat) := by
      intro p hp
      rw [u32_beq_iff, groupKey_iteration, group_iteration C ck0 (h.above p hp)]
    have hfind : s.keys.find? (fun k => k.iteration == it) =
        (w.skipped.find? (fun p => decide (Window.counter p = it.toNat))).map
          (fun p => groupKey C (ck0.iter C (p - ck0.iteration.toNat))) := by
      rw [h.skipped, List.find?_map]
      congr 1
      have hp := hpred
      generalize w.skipped = l at hp
      induction l with
      | nil => rfl
      | cons a l ih =>
        simp only [List.find?_cons, Function.comp]
        rw [hp a (by simp)]
        split
        · rfl
        · exact ih (fun p hm => hp p (by simp [hm]))
    have herase : s.keys.eraseP (fun k => k.iteration == it) =
        (w.skipped.eraseP (fun p => decide (Window.counter p = it.toNat))).map
          (fun p => groupKey C (ck0.iter C (p - ck0.iteration.toNat))) := by
      rw [h.skipped, List.eraseP_map]
      congr 1
      have hp := hpred
      generalize w.skipped = l at hp
      induction l with
      | nil => rfl
      | cons a l ih =>
        simp only [List.eraseP_cons, Function.comp]
        rw [hp a (by simp)]
        congr 1
        congr 1
        exact ih (fun p hm => hp p (by simp [hm]))
    cases hs : w.skipped.find? (fun p => decide (Window.counter p = it.toNat)) with
    | none =>
      rw [hs] at hfind
      have : s.hasKey it = false := by
        simp only [Option.map_none, List.find?_eq_none] at hfind
        simp only [SKState.hasKey, List.any_eq_false]; exact hfind
      simp only [this, if_pos hlt, Bool.false_eq_true, if_false]
    | some p =>
      rw [hs] at hfind
      simp only [Option.map_some] at hfind
      have hmem := List.mem_of_find?_eq_some hfind
      have hany : s.hasKey it = true := by
        simp only [SKState.hasKey, List.any_eq_true]; exact ⟨_, hmem, List.find?_some (p := fun k : SMKey => k.iteration == it) hfind⟩
      have hidx : ∃ i, s.keys.findIdx? (fun k => k.iteration == it) = some i := by
        rw [← Option.isSome_iff_exists, List.findIdx?_isSome]; exact hany
      obtain ⟨i, hi⟩ := hidx
      have hget := getElem?_findIdx? hfind hi
      simp only [hany, if_true, SKState.removeKey, hi, hget]
      refine ⟨_, rfl, ⟨h.start, h.key, ?_, ?_, ?_, ?_, ?_⟩, rfl, rfl, h.above p (List.mem_of_find?_eq_some hs)⟩
      · show s.keys.eraseIdx i = _
        rw [← herase, List.eraseP_eq_eraseIdx, hi]
      · exact Nat.le_trans (List.eraseP_sublist.length_le) h.bound
      · intro q hq; exact h.below q (List.mem_of_mem_eraseP hq)
      · intro q hq; exact h.above q (List.mem_of_mem_eraseP hq)
      · exact h.nodup.sublist List.eraseP_sublist
  · have hlt' : ¬ it < s.chain.iteration := by rw [UInt32.lt_iff_toNat_lt, hidx]; exact hlt
    have hle : s.chain.iteration ≤ it := UInt32.not_lt.1 hlt'
    have hsub : (it - s.chain.iteration).toNat = it.toNat - Window.counter w.next := by
      rw [UInt32.toNat_sub_of_le _ _ hle, hidx]
    have hfut : ((2000 : UInt32) < it - s.chain.iteration) ↔ ¬ (it.toNat - Window.counter w.next ≤ 2000) := by
      rw [UInt32.lt_iff_toNat_lt, hsub]
      show 2000 < _ ↔ _
      omega
    rw [if_neg hlt, if_neg hlt']
    by_cases hf : it.toNat - Window.counter w.next ≤ 2000
    · rw [if_pos (show _ ≤ groupLimits.future from hf), if_neg (by rw [hfut]; simpa using hf)]
      have hkl : s.keys.length ≤ 2000 := by rw [h.skipped, List.length_map]; exact h.bound
      rw [groupSkip_eq C it _ s s.chain hkl hle rfl]
      simp only [hsub, msgKey_eq, Res.map_ok]
      rw [show groupLimits.memory = 2000 from rfl]
      generalize it.toNat - Window.counter w.next = n
      have hst := h.start
      have hcomm : ∀ j, w.next + j - ck0.iteration.toNat = (w.next - ck0.iteration.toNat) + j := by omega
      refine ⟨{ s with keys := Window.lastN 2000 (s.keys ++ (List.range n).map (fun i => groupKey C (s.chain.iter C i))), chain := (s.chain.iter C n).next C }, ?_, ⟨?_, ?_, ?_, ?_, ?_, ?_, ?_⟩, rfl, rfl, by omega⟩
      · rw [h.key, ← SChainKey.iter_add, hcomm]
      · show _ ≤ w.next + n + 1; omega
      · show (s.chain.iter C n).next C = ck0.iter C (w.next + n + 1 - ck0.iteration.toNat)
        rw [h.key, ← SChainKey.iter_add, show w.next + n + 1 = w.next + (n + 1) from rfl, hcomm]; rfl
      · dsimp only
        rw [lastN_map, h.skipped, h.key]
        congr 1
        rw [List.map_append, List.map_map]
        congr 1
        apply List.map_congr_left
        intro i _
        simp only [Function.comp, hcomm, SChainKey.iter_add]
      · dsimp only
        exact lastN_length _ _
      · intro p hp
        dsimp only at hp
        have := (lastN_sublist _ _).subset hp
        simp only [List.mem_append, List.mem_map, List.mem_range] at this
        show p < w.next + n + 1
        rcases this with h1 | ⟨i, hi, rfl⟩
        · have := h.below p h1; omega
        · omega
      · intro p hp
        dsimp only at hp
        have := (lastN_sublist _ _).subset hp
        simp only [List.mem_append, List.mem_map, List.mem_range] at this
        rcases this with h1 | ⟨i, hi, rfl⟩
        · exact h.above p h1
        · omega
      · apply List.Nodup.sublist (lastN_sublist _ _)
        rw [List.nodup_append]
        refine ⟨h.nodup, nodup_range_map _ _, ?_⟩
        intro a ha b hb
        have := h.below a ha
        simp only [List.mem_map, List.mem_range] at hb
        obtain ⟨i, _, rfl⟩ := hb
        omega
    · rw [if_neg (show ¬ _ ≤ groupLimits.future from hf), if_pos (by rw [hfut]; exact hf)]
      simp only [if_neg hlt]

/-- A state just added, with chain key `ck`, is in the window starting at its iteration. -/
theorem grefines_new (C : Crypto) (id : UInt32) (ck : SChainKey) (kp : KeyPair) :
    GRefines C ck ⟨[], id, ck, kp⟩ ⟨ck.iteration.toNat, []⟩ :=
  ⟨Nat.le_refl _, by simp [SChainKey.iter], rfl, by simp, by simp, by simp, by simp⟩

/-! ### Serialisation -/

/-- What a state is after a save and a load: a missing private signing key has become 32 zero bytes. -/
def SKState.reloaded (s : SKState) : SKState :=
  { s with signing := ⟨s.signing.pub, some (s.signing.priv.getD (sliceToArray 32 []))⟩ }

theorem ofStruct_toStruct (s : SKState) : SKState.ofStruct s.toStruct = .ok s.reloaded := by
  obtain ⟨ks, id, ch, pub, priv⟩ := s
  simp only [SKState.ofStruct, SKState.toStruct, decodePoint_serPub, Res.map_ok, SKState.reloaded]
  cases priv <;> simp

theorem grec_ofStruct_toStruct (r : GRec) : GRec.ofStruct (GRec.toStruct r) = .ok (r.map SKState.reloaded) := by
  unfold GRec.ofStruct GRec.toStruct
  rw [seqRes_ok_iff, List.map_map, List.map_map]
  apply List.map_congr_left
  intro s _
  exact ofStruct_toStruct s

theorem reloaded_self {s : SKState} {k : Key32} (h : s.signing.priv = some k) : s.reloaded = s := by
  obtain ⟨ks, id, ch, pub, priv⟩ := s
  simp only at h
  subst h
  rfl

/-- Every state of the record has a (possibly all-zero) private key: what loading always yields. -/
def Loaded (r : GRec) : Prop := ∀ s ∈ r, ∃ k, s.signing.priv = some k

theorem loaded_ofStruct {st : List SKStateStruct} {r : GRec} (h : GRec.ofStruct st = .ok r) : Loaded r := by
  unfold GRec.ofStruct at h
  rw [seqRes_ok_iff] at h
  intro s hs
  have : Res.ok s ∈ st.map SKState.ofStruct := by rw [h]; exact List.mem_map.2 ⟨s, hs, rfl⟩
  obtain ⟨x, -, hx⟩ := List.mem_map.1 this
  simp only [SKState.ofStruct] at hx
  cases hd : decodePoint x.signingPub with
  | ok p => simp only [hd, Res.map_ok, Res.ok.injEq] at hx; subst hx; exact ⟨_, rfl⟩
  | err e => simp [hd] at hx
  | panic => simp [hd] at hx

theorem reloaded_map {r : GRec} (h : Loaded r) : r.map SKState.reloaded = r := by
  conv => rhs; rw [← List.map_id r]
  apply List.map_congr_left
  intro s hs
  obtain ⟨k, hk⟩ := h s hs
  simpa using reloaded_self hk

theorem GStore.loaded {st : GStore} {n : SenderKeyName} {r : GRec} (h : st.load n = .ok (some r)) : Loaded r := by
  unfold GStore.load at h
  cases hr : st.recs n with
  | none => simp [hr] at h
  | some x =>
    simp only [hr] at h
    cases ho : GRec.ofStruct x with
    | ok r' => simp only [ho, Res.ok.injEq, Option.some.injEq] at h; subst h; exact loaded_ofStruct ho
    | err e => simp [ho] at h
    | panic => simp [ho] at h

theorem GStore.load_save (st : GStore) (n : SenderKeyName) (r : GRec) :
    (st.save n r).load n = .ok (some (r.map SKState.reloaded)) := by
  simp [GStore.load, GStore.save, grec_ofStruct_toStruct]

theorem GStore.load_save_loaded (st : GStore) (n : SenderKeyName) (r : GRec) (h : Loaded r) :
    (st.save n r).load n = .ok (some r) := by
  rw [GStore.load_save, reloaded_map h]

theorem GStore.load_save_ne (st : GStore) {n n' : SenderKeyName} (r : GRec) (h : n' ≠ n) :
    (st.save n r).load n' = st.load n' := by
  simp [GStore.load, GStore.save, h]

/-! ### Decrypt -/

/-- All the ways `Decrypt` ends. -/
theorem groupDecrypt_cases (C : Crypto) (S : Ser SKStruct) (r : GRec) (m : SenderKeyMsg) :
    (∃ res r', groupDecrypt C S (some r) m = (res, r', false) ∧ res.isOk = false) ∨
    (∃ s body mk s' pt, r.find? (fun s => s.keyId == m.keyId) = some s ∧ m.serialize S = .ok body ∧
      C.verify s.signing.pub body m.sig = true ∧ getSenderKey C s m.iteration = (.ok (some mk), s') ∧
      decryptCbc C (some mk.iv) mk.cipherKey (m.ciphertext.getD []) = .ok pt ∧
      groupDecrypt C S (some r) m = (.ok pt, some (modifyFirst (fun s => s.keyId == m.keyId) (fun _ => s') r), true)) := by
  cases r with
  | nil => exact .inl ⟨_, _, rfl, rfl⟩
  | cons s0 rest =>
    simp only [groupDecrypt]
    cases hf : (s0 :: rest).find? (fun s => s.keyId == m.keyId) with
    | none => exact .inl ⟨_, _, rfl, rfl⟩
    | some s =>
      simp only
      cases hs : m.serialize S with
      | err e => exact .inl ⟨_, _, rfl, rfl⟩
      | panic => exact .inl ⟨_, _, rfl, rfl⟩
      | ok body =>
        simp only
        cases hv : C.verify s.signing.pub body m.sig with
        | false => exact .inl ⟨_, _, rfl, rfl⟩
        | true =>
          simp only [Bool.true_eq_false, if_false]
          cases hg : getSenderKey C s m.iteration with
          | mk res s' =>
            cases res with
            | err e => exact .inl ⟨_, _, rfl, rfl⟩
            | panic => exact .inl ⟨_, _, rfl, rfl⟩
            | ok o =>
              cases o with
              | none => exact .inl ⟨_, _, rfl, rfl⟩
              | some mk =>
                simp only
                cases hd : decryptCbc C (some mk.iv) mk.cipherKey (m.ciphertext.getD []) with
                | err e => exact .inl ⟨_, _, rfl, rfl⟩
                | panic => exact .inl ⟨_, _, rfl, rfl⟩
                | ok pt => exact .inr ⟨s, body, mk, s', pt, rfl, rfl, hv, hg, hd, rfl⟩

theorem getSenderKey_fixed (C : Crypto) (s : SKState) (it : UInt32) :
    (getSenderKey C s it).2.keyId = s.keyId ∧ (getSenderKey C s it).2.signing = s.signing := by
  have hskip : ∀ n s (ck : SChainKey), (groupSkip C it n s ck).2.keyId = s.keyId ∧ (groupSkip C it n s ck).2.signing = s.signing := by
    intro n
    induction n with
    | zero => intro s ck; exact ⟨rfl, rfl⟩
    | succ n ih =>
      intro s ck
      simp only [groupSkip]
      split
      · rw [msgKey_eq]; exact ih _ _
      · exact ⟨rfl, rfl⟩
  unfold getSenderKey
  split
  · split
    · simp only [SKState.removeKey]
      split <;> exact ⟨rfl, rfl⟩
    · exact ⟨rfl, rfl⟩
  · split
    · exact ⟨rfl, rfl⟩
    · have := hskip (it - s.chain.iteration).toNat s s.chain
      generalize groupSkip C it (it - s.chain.iteration).toNat s s.chain = x at this
      obtain ⟨res, s'⟩ := x
      cases res <;> exact this

theorem loaded_modify {r : GRec} (h : Loaded r) {C : Crypto} {p : SKState → Bool} {s : SKState} (hs : s ∈ r) (it : UInt32) :
    Loaded (modifyFirst p (fun _ => (getSenderKey C s it).2) r) := by
  intro x hx
  rcases mem_modifyFirst hx with h1 | ⟨a, -, -, rfl⟩
  · exact h x h1
  · rw [(getSenderKey_fixed C s it).2]; exact h s hs

/-- `Decrypt` against a store that holds a record for the name. -/
theorem GStore.decrypt_cases (C : Crypto) (S : Ser SKStruct) {st : GStore} {n : SenderKeyName} {r : GRec}
    (h : st.load n = .ok (some r)) (m : SenderKeyMsg) :
    ((st.decrypt C S n m).2 = st ∧ (st.decrypt C S n m).1.isOk = false) ∨
    (∃ s body mk s' pt, r.find? (fun s => s.keyId == m.keyId) = some s ∧ m.serialize S = .ok body ∧
      C.verify s.signing.pub body m.sig = true ∧ getSenderKey C s m.iteration = (.ok (some mk), s') ∧
      decryptCbc C (some mk.iv) mk.cipherKey (m.ciphertext.getD []) = .ok pt ∧ (st.decrypt C S n m).1 = .ok pt ∧
      (st.decrypt C S n m).2 = st.save n (modifyFirst (fun s => s.keyId == m.keyId) (fun _ => s') r) ∧
      (st.decrypt C S n m).2.load n = .ok (some (modifyFirst (fun s => s.keyId == m.keyId) (fun _ => s') r))) := by
  unfold GStore.decrypt
  rw [h]
  simp only
  rcases groupDecrypt_cases C S r m with ⟨res, r', he, hno⟩ | ⟨s, body, mk, s', pt, h1, h2, h3, h4, h5, h6⟩
  · rw [he]
    left
    cases r' <;> exact ⟨rfl, hno⟩
  · rw [h6]
    right
    refine ⟨s, body, mk, s', pt, h1, h2, h3, h4, h5, rfl, rfl, ?_⟩
    apply GStore.load_save_loaded
    have := loaded_modify (GStore.loaded h) (C := C) (p := fun s => s.keyId == m.keyId) (List.mem_of_find?_eq_some h1) m.iteration
    rw [h4] at this
    exact this

end Verif
