import Verif.Props.Groups
import Verif.Model.GroupStores
/-
C23 (sender key records round-trip), C30 (no replay, bounded state), C33 (a new distribution message takes effect), and
concrete cases for C29-C33.
-/
set_option linter.unusedSimpArgs false
namespace Verif

/-! ### C23 -/

/-- **C23 (partial).** Serialising a sender key record and rebuilding it never fails and yields the same states in order with the same
skipped keys, key id, chain and public signing key; a record that owns all its private signing keys comes back identical.
Missing: records that do not own the private key, for which the full claim is false (`C23_receive_only_false`). -/
theorem C23_roundtrip_partial (r : GRec) :
    ∃ r', GRec.ofStruct (GRec.toStruct r) = .ok r' ∧ r'.length = r.length ∧
      (∀ (i : Nat) s, r[i]? = some s → ∃ s', r'[i]? = some s' ∧ s'.keys = s.keys ∧ s'.keyId = s.keyId ∧ s'.chain = s.chain ∧
        s'.signing.pub = s.signing.pub ∧ (∀ k, s.signing.priv = some k → s'.signing.priv = some k)) ∧
      ((∀ s ∈ r, s.signing.priv ≠ none) → r' = r) := by
  refine ⟨_, grec_ofStruct_toStruct r, by simp, ?_, ?_⟩
  · intro i s hs
    refine ⟨s.reloaded, by simp [hs], rfl, rfl, rfl, rfl, ?_⟩
    intro k hk
    simp [SKState.reloaded, hk]
  · intro h
    apply reloaded_map
    intro s hs
    cases hk : s.signing.priv with
    | none => exact absurd hk (h s hs)
    | some k => exact ⟨k, rfl⟩

/-- **C23 is false of the code** for every receive-only state: after a reload it has an all-zero private signing key where
it had none, so Encrypt on it, which crashed before the reload, now "succeeds" and signs with the zero key. -/
theorem C23_receive_only_false (C : Crypto) (S : Ser SKStruct) (hSer : StdSK S) (s : SKState) (rest : GRec) (h : s.signing.priv = none) (rand : Arr 64) (pt : Bytes) :
    ∃ r' m content, GRec.ofStruct (GRec.toStruct (s :: rest)) = .ok r' ∧ r' ≠ s :: rest ∧
      (groupEncrypt C S rand (some (s :: rest)) pt).1 = .panic ∧
      (groupEncrypt C S rand (some r') pt).1 = .ok m ∧ m.serialize S = .ok content ∧
      m.sig = C.sign ⟨List.replicate 32 0, by simp⟩ content rand := by
  refine ⟨(s :: rest).map SKState.reloaded, ?_⟩
  rw [grec_ofStruct_toStruct]
  have hl : (GStore.save ⟨fun _ => none⟩ ⟨"", ⟨"", 0⟩⟩ (s :: rest)).load ⟨"", ⟨"", 0⟩⟩ = .ok (some ((s :: rest).map SKState.reloaded)) :=
    GStore.load_save _ _ _
  rw [List.map_cons] at hl
  have hp : s.reloaded.signing.priv = some ⟨List.replicate 32 0, by simp⟩ := by
    simp only [SKState.reloaded, h, Option.getD_none]
    rfl
  obtain ⟨m, body, content, h1, -, -, -, -, -, h7, h8, -⟩ := GStore.encrypt_ok C S hSer _ _ s.reloaded _ _ hl hp pt rand
  refine ⟨m, content, rfl, ?_, ?_, ?_, h7, h8⟩
  · intro he
    have : s.reloaded = s := by simpa using (List.cons.inj he).1
    rw [this, h] at hp
    simp at hp
  · have hb : ∃ body, encryptCbc C none (some (groupKey C s.chain).iv) (groupKey C s.chain).cipherKey pt = .ok body := by
      rw [encryptCbc_some C none _ _ _ ((aesKeyOk_iff _).2 (.inr (.inr (groupKey_cipherKey C s.chain))))]
      exact ⟨_, cbcCrypt_ok _ _ _ _ (groupKey_iv C s.chain) (pad_length pt)⟩
    obtain ⟨body, hb⟩ := hb
    simp [groupEncrypt, msgKey_eq, hb, newSenderKeyMessage, h]
  · unfold GStore.encrypt at h1
    rw [hl] at h1
    simp only at h1
    rw [List.map_cons]
    generalize groupEncrypt C S rand (some (s.reloaded :: rest.map SKState.reloaded)) pt = x at h1
    obtain ⟨a, b, c⟩ := x
    cases b <;> cases c <;> exact h1

/-! ### C30 -/

/-- Its effect on the store. -/
def GOp.apply (C : Crypto) (S : Ser SKStruct) (st : GStore) : GOp → GStore
  | .encrypt n pt rand => (st.encrypt C S rand n pt).2
  | .decrypt n m => (st.decrypt C S n m).2
  | .process n m => (st.process n m).2
  | .create n d => (st.create C d n).2

/-- A history of operations. -/
def gRun (C : Crypto) (S : Ser SKStruct) : GStore → List GOp → GStore
  | st, [] => st
  | st, op :: ops => gRun C S (op.apply C S st) ops

theorem gRun_append (C : Crypto) (S : Ser SKStruct) (st : GStore) (a b : List GOp) :
    gRun C S st (a ++ b) = gRun C S (gRun C S st a) b := by
  induction a generalizing st with
  | nil => rfl
  | cons x a ih => exact ih _

def GStore.empty : GStore := ⟨fun _ => none⟩

/-- Every operation either leaves the store alone or saves one record, of one of four kinds. -/
theorem GOp.apply_cases (C : Crypto) (S : Ser SKStruct) (st : GStore) (op : GOp) :
    op.apply C S st = st ∨
    (∃ n s rest pt rand, op = .encrypt n pt rand ∧ st.load n = .ok (some (s :: rest)) ∧
      op.apply C S st = st.save n ({ s with chain := s.chain.next C } :: rest)) ∨
    (∃ n m r s mk s', op = .decrypt n m ∧ st.load n = .ok (some r) ∧ r.find? (fun s => s.keyId == m.keyId) = some s ∧
      getSenderKey C s m.iteration = (.ok (some mk), s') ∧
      op.apply C S st = st.save n (modifyFirst (fun s => s.keyId == m.keyId) (fun _ => s') r)) ∨
    (∃ n m o, op = .process n m ∧ st.load n = .ok o ∧ op.apply C S st = st.save n (groupProcess o m)) ∨
    (∃ n d kp, op = .create n d ∧ (st.load n = .ok none ∨ st.load n = .ok (some [])) ∧
      op.apply C S st = st.save n (GRec.setState d.id 0 d.chain.bytes kp)) := by
  cases op with
  | encrypt n pt rand =>
    simp only [GOp.apply, GStore.encrypt]
    cases hl : st.load n with
    | err e => exact .inl rfl
    | panic => exact .inl rfl
    | ok o =>
      cases o with
      | none => exact .inl rfl
      | some r =>
        cases r with
        | nil => exact .inl rfl
        | cons s rest =>
          simp only [groupEncrypt]
          generalize ((s.chain.msgKey C).bind _) = x
          cases x with
          | err e => exact .inl rfl
          | panic => exact .inl rfl
          | ok m => exact .inr (.inl ⟨n, s, rest, pt, rand, rfl, hl, rfl⟩)
  | decrypt n m =>
    simp only [GOp.apply]
    cases hl : st.load n with
    | err e => left; simp [GStore.decrypt, hl]
    | panic => left; simp [GStore.decrypt, hl]
    | ok o =>
      cases o with
      | none => left; simp [GStore.decrypt, hl, groupDecrypt]
      | some r =>
        rcases GStore.decrypt_cases C S hl m with ⟨h1, -⟩ | ⟨s, body, mk, s', pt, h1, -, -, h4, -, -, h7, -⟩
        · exact .inl h1
        · exact .inr (.inr (.inl ⟨n, m, r, s, mk, s', rfl, hl, h1, h4, h7⟩))
  | process n m =>
    simp only [GOp.apply, GStore.process]
    cases hl : st.load n with
    | err e => exact .inl rfl
    | panic => exact .inl rfl
    | ok o => exact .inr (.inr (.inr (.inl ⟨n, m, o, rfl, hl, rfl⟩)))
  | create n d =>
    simp only [GOp.apply, GStore.create]
    cases hl : st.load n with
    | err e => exact .inl rfl
    | panic => exact .inl rfl
    | ok o =>
      have key : (o = none ∨ o = some []) → (match generateKeyPair C d.signing with
        | .err e => (.err e, none)
        | .panic => (.panic, none)
        | .ok kp => (.ok (newSKDM d.id 0 d.chain.bytes kp.pub), some (GRec.setState d.id 0 d.chain.bytes kp))) = groupCreate C d o := by
        rintro (rfl | rfl) <;> rfl
      have fin : (o = none ∨ o = some []) → (match groupCreate C d o with
          | (res, some r') => (res, st.save n r')
          | (res, none) => (res, st)).2 = st ∨ ∃ kp, (match groupCreate C d o with
          | (res, some r') => (res, st.save n r')
          | (res, none) => (res, st)).2 = st.save n (GRec.setState d.id 0 d.chain.bytes kp) := by
        intro ho
        rw [← key ho]
        cases generateKeyPair C d.signing with
        | err e => exact .inl rfl
        | panic => exact .inl rfl
        | ok kp => exact .inr ⟨kp, rfl⟩
      cases o with
      | none =>
        rcases fin (.inl rfl) with h | ⟨kp, h⟩
        · exact .inl h
        · exact .inr (.inr (.inr (.inr ⟨n, d, kp, rfl, .inl hl, h⟩)))
      | some r =>
        cases r with
        | nil =>
          rcases fin (.inr rfl) with h | ⟨kp, h⟩
          · exact .inl h
          · exact .inr (.inr (.inr (.inr ⟨n, d, kp, rfl, .inr hl, h⟩)))
        | cons s rest => exact .inl rfl

/-- Within the limits: at most 2000 states, each with at most 2000 skipped keys. -/
def GBounded (st : GStore) : Prop :=
  ∀ n x, st.recs n = some x → x.length ≤ 2000 ∧ ∀ s ∈ x, s.keys.length ≤ 2000

theorem getSenderKey_bound (C : Crypto) (s : SKState) (it : UInt32) (h : s.keys.length ≤ 2000) :
    (getSenderKey C s it).2.keys.length ≤ 2000 := by
  unfold getSenderKey
  split
  · split
    · simp only [SKState.removeKey]
      split
      · exact h
      · rw [show ∀ (l : List SMKey) i, (({ s with keys := l.eraseIdx i } : SKState)).keys = l.eraseIdx i from fun _ _ => rfl]
        exact Nat.le_trans (List.length_eraseIdx_le _ _) h
    · exact h
  · split
    · exact h
    · rename_i h1 h2
      rw [groupSkip_eq C it _ s s.chain h (UInt32.not_lt.1 h1) rfl]
      simp only
      exact lastN_length 2000 _

theorem GStore.load_bound {st : GStore} (hb : GBounded st) {n : SenderKeyName} {r : GRec} (h : st.load n = .ok (some r)) :
    r.length ≤ 2000 ∧ ∀ s ∈ r, s.keys.length ≤ 2000 := by
  unfold GStore.load at h
  cases hr : st.recs n with
  | none => simp [hr] at h
  | some x =>
    simp only [hr] at h
    cases ho : GRec.ofStruct x with
    | err e => simp [ho] at h
    | panic => simp [ho] at h
    | ok r' =>
      simp only [ho, Res.ok.injEq, Option.some.injEq] at h; subst h
      obtain ⟨h1, h2⟩ := hb n x hr
      unfold GRec.ofStruct at ho
      rw [seqRes_ok_iff] at ho
      have hlen := congrArg List.length ho
      simp only [List.length_map] at hlen
      refine ⟨by omega, ?_⟩
      intro s hs
      have : Res.ok s ∈ x.map SKState.ofStruct := by rw [ho]; exact List.mem_map.2 ⟨s, hs, rfl⟩
      obtain ⟨y, hy, he⟩ := List.mem_map.1 this
      have hyb := h2 y hy
      simp only [SKState.ofStruct] at he
      cases hd : decodePoint y.signingPub with
      | ok p => simp only [hd, Res.map_ok, Res.ok.injEq] at he; subst he; exact hyb
      | err e => simp [hd] at he
      | panic => simp [hd] at he

theorem GBounded.save {st : GStore} (hb : GBounded st) (n : SenderKeyName) (r : GRec) (h1 : r.length ≤ 2000)
    (h2 : ∀ s ∈ r, s.keys.length ≤ 2000) : GBounded (st.save n r) := by
  intro n' x hx
  simp only [GStore.save] at hx
  split at hx
  · simp only [Option.some.injEq] at hx
    subst hx
    refine ⟨by simpa [GRec.toStruct] using h1, ?_⟩
    intro s hs
    obtain ⟨y, hy, rfl⟩ := List.mem_map.1 hs
    exact h2 y hy
  · exact hb n' x hx

/-- **C30 (bounds).** After any history of group operations starting from an empty store, every stored record has at most 2000 states
and every state at most 2000 skipped message keys. -/
theorem C30_bounded (C : Crypto) (S : Ser SKStruct) (ops : List GOp) : GBounded (gRun C S GStore.empty ops) := by
  have step : ∀ (st : GStore) (op : GOp), GBounded st → GBounded (op.apply C S st) := by
    intro st op hb
    have e : groupMaxMessageKeys = 2000 := rfl
    rcases GOp.apply_cases C S st op with h | ⟨n, s, rest, pt, rand, -, hl, h⟩ | ⟨n, m, r, s, mk, s', -, hl, hf, hg, h⟩ |
        ⟨n, m, o, -, hl, h⟩ | ⟨n, d, kp, -, hl, h⟩ <;> rw [h]
    · exact hb
    · obtain ⟨h1, h2⟩ := GStore.load_bound hb hl
      refine hb.save n _ h1 ?_
      intro x hx
      rcases List.mem_cons.1 hx with rfl | hx
      · exact h2 s (by simp)
      · exact h2 x (by simp [hx])
    · obtain ⟨h1, h2⟩ := GStore.load_bound hb hl
      refine hb.save n _ (by rw [length_modifyFirst]; exact h1) ?_
      intro x hx
      rcases mem_modifyFirst hx with h3 | ⟨a, -, -, rfl⟩
      · exact h2 x h3
      · have := getSenderKey_bound C s m.iteration (h2 s (List.mem_of_find?_eq_some hf))
        rw [hg] at this
        exact this
    · have hold : (o.getD []).length ≤ 2000 ∧ ∀ s ∈ o.getD [], s.keys.length ≤ 2000 := by
        cases o with
        | none => simp
        | some r => exact GStore.load_bound hb hl
      refine hb.save n _ ?_ ?_
      · simp only [groupProcess, GRec.addState]
        split
        · simp only [List.length_drop, List.length_append, List.length_singleton]; omega
        · omega
      · intro x hx
        have hx' : x ∈ (o.getD []) ++ [⟨[], m.id, ⟨m.iteration, m.chainKey.getD []⟩, ⟨m.signatureKey, none⟩⟩] := by
          simp only [groupProcess, GRec.addState] at hx
          split at hx
          · exact List.mem_of_mem_drop hx
          · exact hx
        rcases List.mem_append.1 hx' with h3 | h3
        · exact hold.2 x h3
        · rw [List.mem_singleton] at h3; subst h3; simp
    · exact hb.save n _ (by simp [GRec.setState]) (by simp [GRec.setState])
  suffices ∀ st, GBounded st → GBounded (gRun C S st ops) from this _ (by intro n x h; simp [GStore.empty] at h)
  induction ops with
  | nil => intro st h; exact h
  | cons op ops ih => intro st h; exact ih _ (step st op h)

/-- The operation stays clear of the 32-bit wrap-around of iterations, and does not push a state out of a full record. -/
def GOp.Safe (st : GStore) : GOp → Prop
  | .encrypt n _ _ => ∀ s rest, st.load n = .ok (some (s :: rest)) → s.chain.iteration.toNat ≠ 2 ^ 32 - 1
  | .decrypt _ m => m.iteration.toNat ≠ 2 ^ 32 - 1
  | .process n _ => ∀ r, st.load n = .ok (some r) → r.length < 2000
  | .create _ _ => True

/-- Every operation of the history is safe. -/
def SafeRun (C : Crypto) (S : Ser SKStruct) : GStore → List GOp → Prop
  | _, [] => True
  | st, op :: ops => op.Safe st ∧ SafeRun C S (op.apply C S st) ops

theorem SafeRun.append {C : Crypto} {S : Ser SKStruct} {st : GStore} {a b : List GOp} (h : SafeRun C S st (a ++ b)) :
    SafeRun C S st a ∧ SafeRun C S (gRun C S st a) b := by
  induction a generalizing st with
  | nil => exact ⟨trivial, h⟩
  | cons x a ih => exact ⟨⟨h.1, (ih h.2).1⟩, (ih h.2).2⟩

/-- A state in some window that has not wrapped. -/
def SKState.InWindow (C : Crypto) (s : SKState) : Prop := ∃ ck0 w, GRefines C ck0 s w ∧ w.next < 2 ^ 32

/-- All states of all stored records are in a window. -/
def GInv (C : Crypto) (st : GStore) : Prop := ∀ n r, st.load n = .ok (some r) → ∀ s ∈ r, s.InWindow C

theorem GRefines.transport {C : Crypto} {ck0 : SChainKey} {s s' : SKState} {w : Window} (h : GRefines C ck0 s w)
    (hk : s'.keys = s.keys) (hc : s'.chain = s.chain) : GRefines C ck0 s' w :=
  ⟨h.start, by rw [hc, h.key], by rw [hk, h.skipped], h.bound, h.below, h.above, h.nodup⟩

theorem GRefines.advance {C : Crypto} {ck0 : SChainKey} {s : SKState} {w : Window} (h : GRefines C ck0 s w) :
    GRefines C ck0 { s with chain := s.chain.next C } ⟨w.next + 1, w.skipped⟩ := by
  have := h.start
  refine ⟨Nat.le_succ_of_le h.start, ?_, h.skipped, h.bound, fun p hp => Nat.lt_succ_of_lt (h.below p hp), h.above, h.nodup⟩
  show s.chain.next C = ck0.iter C (w.next + 1 - ck0.iteration.toNat)
  rw [h.key, show w.next + 1 - ck0.iteration.toNat = (w.next - ck0.iteration.toNat) + 1 by omega]; rfl

theorem GRefines.iteration_lt {C : Crypto} {ck0 : SChainKey} {s : SKState} {w : Window} (h : GRefines C ck0 s w) (hw : w.next < 2 ^ 32) :
    s.chain.iteration.toNat = w.next := by
  rw [h.key, group_iteration C ck0 h.start]; exact Nat.mod_eq_of_lt hw

/-- The message number `p` of the state with key id `id` stored under `n` has been used up. -/
def GConsumed (C : Crypto) (st : GStore) (n : SenderKeyName) (id : UInt32) (p : Nat) : Prop :=
  ∃ r s ck0 w, st.load n = .ok (some r) ∧ r.find? (fun s => s.keyId == id) = some s ∧ GRefines C ck0 s w ∧ w.next < 2 ^ 32 ∧
    p < w.next ∧ p ∉ w.skipped

theorem groupProcess_room {r : GRec} {m : SKDMsg} (h : r.length < 2000) :
    groupProcess (some r) m = r ++ [⟨[], m.id, ⟨m.iteration, m.chainKey.getD []⟩, ⟨m.signatureKey, none⟩⟩] := by
  have e : groupMaxMessageKeys = 2000 := rfl
  simp only [groupProcess, GRec.addState, Option.getD_some]
  rw [if_neg (by simp only [List.length_append, List.length_singleton]; omega)]

theorem GInv.step {C : Crypto} {S : Ser SKStruct} {st : GStore} (h : GInv C st) {op : GOp} (hs : op.Safe st) :
    GInv C (op.apply C S st) := by
  have hsave : ∀ n (r : GRec), (∀ s ∈ r, s.InWindow C) → GInv C (st.save n r) := by
    intro n r hr n' r' hl s hs
    by_cases hn : n' = n
    · subst hn
      rw [GStore.load_save] at hl
      simp only [Res.ok.injEq, Option.some.injEq] at hl
      subst hl
      obtain ⟨x, hx, rfl⟩ := List.mem_map.1 hs
      obtain ⟨ck0, w, h1, h2⟩ := hr x hx
      exact ⟨ck0, w, h1.transport rfl rfl, h2⟩
    · rw [GStore.load_save_ne _ _ hn] at hl
      exact h n' r' hl s hs
  rcases GOp.apply_cases C S st op with he | ⟨n, s, rest, pt, rand, rfl, hl, he⟩ | ⟨n, m, r, s, mk, s', rfl, hl, hf, hg, he⟩ |
        ⟨n, m, o, rfl, hl, he⟩ | ⟨n, d, kp, rfl, hl, he⟩ <;> rw [he]
  · exact h
  · apply hsave
    intro x hx
    rcases List.mem_cons.1 hx with rfl | hx
    · obtain ⟨ck0, w, h1, h2⟩ := h n _ hl s (by simp)
      have := hs s rest hl
      rw [h1.iteration_lt h2] at this
      exact ⟨ck0, _, h1.advance, by show w.next + 1 < _; omega⟩
    · exact h n _ hl x (by simp [hx])
  · apply hsave
    intro x hx
    rcases mem_modifyFirst hx with h3 | ⟨a, -, -, rfl⟩
    · exact h n _ hl x h3
    · obtain ⟨ck0, w, h1, h2⟩ := h n _ hl s (List.mem_of_find?_eq_some hf)
      have href := getSenderKey_refines h1 m.iteration
      cases ha : Window.accept groupLimits w m.iteration.toNat with
      | none => rw [ha] at href; simp only at href; rw [hg] at href; simp at href
      | some pw =>
        obtain ⟨p, w'⟩ := pw
        rw [ha] at href
        obtain ⟨s2, hg2, hw2, -⟩ := href
        rw [hg] at hg2
        simp only [Prod.mk.injEq] at hg2
        obtain ⟨-, rfl⟩ := hg2
        have := accept_next ha h2 h1.below
        have hb := m.iteration.toNat_lt
        have hs : m.iteration.toNat ≠ 2 ^ 32 - 1 := hs
        exact ⟨ck0, w', hw2, by omega⟩
  · apply hsave
    intro x hx
    have hx' : x ∈ (o.getD []) ++ [⟨[], m.id, ⟨m.iteration, m.chainKey.getD []⟩, ⟨m.signatureKey, none⟩⟩] := by
      simp only [groupProcess, GRec.addState] at hx
      split at hx
      · exact List.mem_of_mem_drop hx
      · exact hx
    rcases List.mem_append.1 hx' with h3 | h3
    · cases o with
      | none => simp at h3
      | some r => exact h n r hl x h3
    · rw [List.mem_singleton] at h3; subst h3
      exact ⟨_, _, grefines_new _ _ _ _, m.iteration.toNat_lt⟩
  · apply hsave
    intro x hx
    simp only [GRec.setState, List.mem_singleton] at hx
    subst hx
    exact ⟨_, _, grefines_new _ _ _ _, by show (0 : UInt32).toNat < _; decide⟩

theorem GConsumed.step {C : Crypto} {S : Ser SKStruct} {st : GStore} {n : SenderKeyName} {id : UInt32} {p : Nat}
    (h : GConsumed C st n id p) {op : GOp} (hs : op.Safe st) : GConsumed C (op.apply C S st) n id p := by
  obtain ⟨r, s, ck0, w, hl, hf, hw, hlt, hp, hn⟩ := h
  have hsame : ∀ n' (r' : GRec), n' ≠ n → GConsumed C (st.save n' r') n id p := fun n' r' hne =>
    ⟨r, s, ck0, w, by rw [GStore.load_save_ne _ _ (Ne.symm hne)]; exact hl, hf, hw, hlt, hp, hn⟩
  have hsave : ∀ (r' : GRec) s' w', r'.find? (fun s => s.keyId == id) = some s' → GRefines C ck0 s' w' → w'.next < 2 ^ 32 → p < w'.next →
      p ∉ w'.skipped → GConsumed C (st.save n r') n id p := by
    intro r' s' w' h1 h2 h3 h4 h5
    refine ⟨_, s'.reloaded, ck0, w', GStore.load_save _ _ _, ?_, h2.transport rfl rfl, h3, h4, h5⟩
    rw [List.find?_map, show (fun s : SKState => s.keyId == id) ∘ SKState.reloaded = fun s => s.keyId == id from rfl, h1]; rfl
  rcases GOp.apply_cases C S st op with he | ⟨n', s1, rest, pt, rand, rfl, hl', he⟩ | ⟨n', m, r', s1, mk, s', rfl, hl', hf', hg, he⟩ |
        ⟨n', m, o, rfl, hl', he⟩ | ⟨n', d, kp, rfl, hl', he⟩ <;> rw [he]
  · exact ⟨r, s, ck0, w, hl, hf, hw, hlt, hp, hn⟩
  · by_cases hne : n' = n
    · subst hne
      rw [hl] at hl'
      simp only [Res.ok.injEq, Option.some.injEq] at hl'
      subst hl'
      by_cases hid : s1.keyId = id
      · rw [List.find?_cons, show (s1.keyId == id) = true by simpa using hid] at hf
        simp only [Option.some.injEq] at hf
        subst hf
        have hsafe := hs s1 rest hl
        rw [hw.iteration_lt hlt] at hsafe
        refine hsave _ { s1 with chain := s1.chain.next C } ⟨w.next + 1, w.skipped⟩ ?_ hw.advance (by show w.next + 1 < _; omega) (by show p < w.next + 1; omega) hn
        rw [List.find?_cons]
        simp [hid]
      · refine hsave _ s w ?_ hw hlt hp hn
        have hb : (s1.keyId == id) = false := by simpa using hid
        rw [List.find?_cons] at hf ⊢
        simp only [hb] at hf ⊢
        exact hf
    · exact hsame _ _ hne
  · by_cases hne : n' = n
    · subst hne
      rw [hl] at hl'
      simp only [Res.ok.injEq, Option.some.injEq] at hl'
      subst hl'
      have hfix := getSenderKey_fixed C s1 m.iteration
      rw [hg] at hfix
      simp only at hfix
      have hs1 : s1.keyId = m.keyId := by simpa using List.find?_some hf'
      by_cases hid : m.keyId = id
      · subst hid
        rw [hf] at hf'
        cases hf'
        have href := getSenderKey_refines hw m.iteration
        cases ha : Window.accept groupLimits w m.iteration.toNat with
        | none => rw [ha] at href; simp only at href; rw [hg] at href; simp at href
        | some pw =>
          obtain ⟨q, w'⟩ := pw
          rw [ha] at href
          obtain ⟨s2, hg2, hw2, -⟩ := href
          rw [hg] at hg2
          simp only [Prod.mk.injEq] at hg2
          obtain ⟨-, rfl⟩ := hg2
          have h1 := accept_next ha hlt hw.below
          have h2 := accept_mono hlt hp hn ha
          have hb := m.iteration.toNat_lt
          have hs : m.iteration.toNat ≠ 2 ^ 32 - 1 := hs
          refine hsave _ s' w' ?_ hw2 (by omega) h2.1 h2.2.1
          rw [find?_modifyFirst _ _ _ (by intro a _; simp [hfix.1, hs1]), hf]; rfl
      · refine hsave _ s w ?_ hw hlt hp hn
        rw [find?_modifyFirst_ne, hf]
        intro a ha
        have ha : a.keyId = m.keyId := by simpa using ha
        simp [ha, hfix.1, hs1, hid]
    · exact hsame _ _ hne
  · by_cases hne : n' = n
    · subst hne
      rw [hl] at hl'
      simp only [Res.ok.injEq] at hl'
      subst hl'
      rw [groupProcess_room (hs r hl)]
      refine hsave _ s w ?_ hw hlt hp hn
      rw [List.find?_append, hf]; rfl
    · exact hsame _ _ hne
  · by_cases hne : n' = n
    · subst hne
      rcases hl' with hl' | hl' <;> rw [hl] at hl' <;> simp at hl'
      subst hl'
      simp at hf
    · exact hsame _ _ hne

/-- **C30 (no replay).** In every history of group operations from an empty store: once a message has been decrypted, no later message
with the same key id and iteration for the same sender name decrypts, whatever else was encrypted, decrypted, processed or
created in between; the store is left unchanged by the attempt. -/
theorem C30_no_replay (C : Crypto) (S : Ser SKStruct) (n : SenderKeyName) (m m' : SenderKeyMsg) (before after : List GOp)
    (hsafe : SafeRun C S GStore.empty (before ++ .decrypt n m :: after))
    (hok : ((gRun C S GStore.empty before).decrypt C S n m).1.isOk = true)
    (hid : m'.keyId = m.keyId) (hit : m'.iteration = m.iteration) :
    ((gRun C S GStore.empty (before ++ .decrypt n m :: after)).decrypt C S n m').1.isOk = false := by
  obtain ⟨sa, sb⟩ := hsafe.append
  have inv : ∀ (ops : List GOp) st, GInv C st → SafeRun C S st ops → GInv C (gRun C S st ops) := by
    intro ops
    induction ops with
    | nil => intro st h _; exact h
    | cons op ops ih => intro st h hs; exact ih _ (h.step hs.1) hs.2
  have hi := inv before GStore.empty (by intro n r h; simp [GStore.empty, GStore.load] at h) sa
  rw [gRun_append]
  generalize gRun C S GStore.empty before = st at hi hok sb
  -- the position is used up
  have hc : GConsumed C (st.decrypt C S n m).2 n m.keyId m.iteration.toNat := by
    cases hl : st.load n with
    | err e => simp [GStore.decrypt, hl, Res.isOk] at hok
    | panic => simp [GStore.decrypt, hl, Res.isOk] at hok
    | ok o =>
      cases o with
      | none => simp [GStore.decrypt, hl, groupDecrypt, Res.isOk] at hok
      | some r =>
        rcases GStore.decrypt_cases C S hl m with ⟨-, h2⟩ | ⟨s, body, mk, s', pt, h1, -, -, h4, -, -, -, h8⟩
        · rw [h2] at hok; simp at hok
        · obtain ⟨ck0, w, hw, hlt⟩ := hi n r hl s (List.mem_of_find?_eq_some h1)
          have href := getSenderKey_refines hw m.iteration
          cases ha : Window.accept groupLimits w m.iteration.toNat with
          | none => rw [ha] at href; simp only at href; rw [h4] at href; simp at href
          | some pw =>
            obtain ⟨q, w'⟩ := pw
            rw [ha] at href
            obtain ⟨s2, hg2, hw2, -⟩ := href
            rw [h4] at hg2
            simp only [Prod.mk.injEq] at hg2
            obtain ⟨-, rfl⟩ := hg2
            have h2 := accept_next ha hlt hw.below
            have hb := m.iteration.toNat_lt
            have hs : m.iteration.toNat ≠ 2 ^ 32 - 1 := sb.1
            have hfix := getSenderKey_fixed C s m.iteration
            rw [h4] at hfix
            simp only at hfix
            have hs1 : s.keyId = m.keyId := by simpa using List.find?_some h1
            refine ⟨_, s', ck0, w', h8, ?_, hw2, by omega, by omega, ?_⟩
            · rw [find?_modifyFirst _ _ _ (by intro a _; simp [hfix.1, hs1]), h1]; rfl
            · -- not remembered any more
              have e : Window.counter w.next = w.next := Nat.mod_eq_of_lt hlt
              unfold Window.accept at ha
              rw [e] at ha
              split at ha
              · split at ha
                · simp only [Option.some.injEq, Prod.mk.injEq] at ha
                  obtain ⟨rfl, rfl⟩ := ha
                  simp only
                  exact not_mem_eraseP hw.nodup (fun p hp => by
                    simp [Window.counter, Nat.mod_eq_of_lt (show p < 2 ^ 32 by have := hw.below p hp; omega)])
                · simp at ha
              · split at ha
                · simp only [Option.some.injEq, Prod.mk.injEq] at ha
                  obtain ⟨rfl, rfl⟩ := ha
                  simp only
                  intro hm
                  have := (lastN_sublist _ _).subset hm
                  simp only [List.mem_append, List.mem_map, List.mem_range] at this
                  rcases this with h5 | ⟨i, hi, hi'⟩
                  · have := hw.below _ h5; omega
                  · omega
                · simp at ha
  have many : ∀ (ops : List GOp) st, GConsumed C st n m.keyId m.iteration.toNat → SafeRun C S st ops →
      GConsumed C (gRun C S st ops) n m.keyId m.iteration.toNat := by
    intro ops
    induction ops with
    | nil => intro st h _; exact h
    | cons op ops ih => intro st h hs; exact ih _ (h.step hs.1) hs.2
  have hfin := many after _ hc sb.2
  show ((gRun C S (st.decrypt C S n m).2 after).decrypt C S n m').1.isOk = false
  generalize gRun C S (st.decrypt C S n m).2 after = st2 at hfin
  obtain ⟨r, s, ck0, w, hl, hf, hw, hlt, hp, hn⟩ := hfin
  rcases GStore.decrypt_cases C S hl m' with ⟨-, h2⟩ | ⟨s1, body, mk, s', pt, h1, -, -, h4, -⟩
  · exact h2
  · exfalso
    rw [hid, hf] at h1
    cases h1
    have href := getSenderKey_refines hw m'.iteration
    rw [hit] at href h4
    cases ha : Window.accept groupLimits w m.iteration.toNat with
    | none => rw [ha] at href; simp only at href; rw [h4] at href; simp at href
    | some pw =>
      obtain ⟨q, w'⟩ := pw
      have := accept_next ha hlt hw.below
      exact (accept_mono hlt hp hn ha).2.2 this.1

/-! ### C33 -/

/-- **C33 (partial).** After processing a distribution message with a key id the record does not have, the first message encrypted
from the distributed chain decrypts to its plaintext (all later ones: `C29_group_delivery`), and a state of any other key id that was
usable before is still there, unchanged, unless the record was full.  Missing: key ids already present, for which the
claim is false (`C33_same_id_false`). -/
theorem C33_new_id_partial (C : Crypto) (S : Ser SKStruct) (hSer : StdSK S) (T : Ser SKDStruct) (hT : StdSKD T) (hA : C.AesLaw) (hS : C.SigLaw) (d : GroupDraws) (stA stA1 : GStore) (nA : SenderKeyName)
    (hown : OwnsName C stA nA) (skdm : SKDMsg) (hcr : stA.create C d nA = (.ok skdm, stA1))
    (hck : (skdm.chainKey.getD []).length < 2 ^ 64) (pt : Bytes) (rand : Arr 64) (hpt : pt.length < 2 ^ 63)
    (hwrap : skdm.iteration.toNat + 1 < 2 ^ 32) (stB : GStore) (nB : SenderKeyName)
    (hfresh : stB.load nB = .ok none ∨ ∃ r, stB.load nB = .ok (some r) ∧ ∀ s ∈ r, s.keyId ≠ skdm.id) :
    (∃ wire parsed, skdm.serialize T = .ok wire ∧ newSKDMFromBytes T wire = .ok parsed ∧
      (groupReceive C S nB (groupSend C S nA stA1 [(pt, rand)]).1 (stB.process nB parsed).2 [.deliver 0]).1 = [.ok pt]) ∧
    (∀ (r : GRec) (s : SKState) (m : SKDMsg), stB.load nB = .ok (some r) → r.length < 2000 → s ∈ r →
      r.find? (fun x => x.keyId == s.keyId) = some s →
      ∃ r', (stB.process nB m).2.load nB = .ok (some r') ∧ r'.find? (fun x => x.keyId == s.keyId) = some s) := by
  constructor
  · obtain ⟨wire, parsed, h1, h2, h3⟩ := C29_group_delivery C S hSer T hT hA hS d stA stA1 nA hown skdm hcr hck [(pt, rand)] (by simpa using hpt)
      (by simpa using hwrap) stB nB hfresh [.deliver 0] (by intro e he; simp at he; subst he; simp)
    refine ⟨wire, parsed, h1, h2, ?_⟩
    generalize (groupReceive C S nB (groupSend C S nA stA1 [(pt, rand)]).1 (stB.process nB parsed).2 [.deliver 0]).1 = rs at h3
    cases rs with
    | nil => simp [GroupOutcome] at h3
    | cons x rs =>
      have hacc : Window.accept groupLimits ⟨skdm.iteration.toNat, []⟩ (skdm.iteration.toNat + 0) ≠ none := by
        unfold Window.accept
        have e : Window.counter skdm.iteration.toNat = skdm.iteration.toNat := Nat.mod_eq_of_lt (by omega)
        rw [e, if_neg (by omega), if_pos (by simp)]
        simp
      simp only [GroupOutcome] at h3
      cases ha : Window.accept groupLimits ⟨skdm.iteration.toNat, []⟩ (skdm.iteration.toNat + 0) with
      | none => exact absurd ha hacc
      | some pw =>
        rw [ha] at h3
        obtain ⟨⟨q, hq, rfl⟩, h4⟩ := h3
        simp at hq
        subst hq
        cases rs with
        | nil => rfl
        | cons => simp [GroupOutcome] at h4
  · intro r s m hl hlen hs hf
    refine ⟨(groupProcess (some r) m).map SKState.reloaded, ?_, ?_⟩
    · simp only [GStore.process, hl]; exact GStore.load_save _ _ _
    · rw [groupProcess_room hlen, List.map_append, reloaded_map (GStore.loaded hl), List.find?_append, hf]; rfl

/-- **C33 is false of the code** when the key id is already present: the old state shadows the new one.  For every store that has a
state `s` for the key id of the distribution message (and is not full), the state found for that id after processing is still
`s`, so a message whose signature does not verify under the old signing key is refused. -/
theorem C33_same_id_false (C : Crypto) (S : Ser SKStruct) (st : GStore) (n : SenderKeyName) (r : GRec) (s : SKState) (skdm : SKDMsg)
    (hl : st.load n = .ok (some r)) (hlen : r.length < 2000) (hf : r.find? (fun s => s.keyId == skdm.id) = some s)
    (m : SenderKeyMsg) (hm : m.keyId = skdm.id) (content : Bytes) (hc : m.serialize S = .ok content)
    (hv : C.verify s.signing.pub content m.sig = false) :
    ((st.process n skdm).2.decrypt C S n m).1 = .err .signatureFailed := by
  have hl2 : (st.process n skdm).2.load n = .ok (some (r ++ [SKState.reloaded ⟨[], skdm.id, ⟨skdm.iteration, skdm.chainKey.getD []⟩, ⟨skdm.signatureKey, none⟩⟩])) := by
    simp only [GStore.process, hl]
    rw [GStore.load_save, groupProcess_room hlen, List.map_append, reloaded_map (GStore.loaded hl)]; rfl
  have := (C31_rejects C S _ n m _ hl2 (by simp)).2 s content (by rw [hm, List.find?_append, hf]; rfl) hc hv
  rw [this]

/-! ### Concrete cases -/

section
open Toy
set_option maxRecDepth 100000

/-- A group name and the randomness of one sender. -/
def gName : SenderKeyName := ⟨"group", ⟨"alice", 1⟩⟩
def gDraws (b : UInt8) (id : UInt32) : GroupDraws := ⟨some (key b), id, key (b + 1)⟩
def gRand : Arr 64 := ⟨List.replicate 64 9, by simp⟩
def gSkdm : SKDMsg := match (GStore.empty.create C (gDraws 3 77) gName).1 with
  | .ok m => m
  | _ => newSKDM 0 0 [] (key 0)
def gSender : GStore := (GStore.empty.create C (gDraws 3 77) gName).2
def gSends : List (Bytes × Arr 64) := [([1, 2, 3], gRand), ([], gRand), ([9], gRand)]

theorem toy_owns : OwnsName C GStore.empty gName := .inl rfl
theorem toy_create : GStore.empty.create C (gDraws 3 77) gName = (.ok gSkdm, gSender) := by
  have h1 : (GStore.empty.create C (gDraws 3 77) gName).1 = .ok gSkdm := by decide +kernel
  show _ = (Res.ok gSkdm, (GStore.empty.create C (gDraws 3 77) gName).2)
  rw [← h1]

/-- Non-vacuity of C29: three messages delivered in the order 2, 0, 1. -/
example : ∃ wire parsed, gSkdm.serialize protoSKD = .ok wire ∧ newSKDMFromBytes protoSKD wire = .ok parsed ∧
    (groupReceive C protoSK gName (groupSend C protoSK gName gSender gSends).1 (GStore.empty.process gName parsed).2 ([2, 0, 1].map .deliver)).1 =
      [.ok [9], .ok [1, 2, 3], .ok []] :=
  C29_any_order C protoSK (.inl rfl) protoSKD (.inl rfl) aesLaw sigLaw (gDraws 3 77) GStore.empty gSender gName toy_owns gSkdm toy_create (by decide +kernel) gSends (by decide)
    (by decide) (by decide +kernel) GStore.empty gName (.inl rfl) [2, 0, 1] (by decide) (by decide)

/-- The same with the JSON serializer. -/
example : let sender := (GStore.empty.create C (gDraws 3 77) gName).2
    ∃ wire parsed, gSkdm.serialize jsonSKD = .ok wire ∧ newSKDMFromBytes jsonSKD wire = .ok parsed ∧
    (groupReceive C jsonSK gName (groupSend C jsonSK gName sender gSends).1 (GStore.empty.process gName parsed).2 ([2, 0, 1].map .deliver)).1 =
      [.ok [9], .ok [1, 2, 3], .ok []] :=
  C29_any_order C jsonSK (.inr rfl) jsonSKD (.inr rfl) aesLaw sigLaw (gDraws 3 77) GStore.empty gSender gName toy_owns gSkdm toy_create
    (by decide +kernel) gSends (by decide) (by decide) (by decide +kernel) GStore.empty gName (.inl rfl) [2, 0, 1] (by decide) (by decide)

/-- Bytes that are no group message at all satisfy `NotSignedBy`. -/
example : NotSignedBy C protoSK gSkdm.id gSkdm.signatureKey [1, 2, 3] := by
  intro m content h
  have : (newSenderKeyMessageFromBytes protoSK [1, 2, 3]).isOk = false := by decide +kernel
  rw [h] at this
  simp [Res.isOk] at this

/-- The first message sent. -/
def gFirst (l : List (Res SenderKeyMsg)) : SenderKeyMsg := match l with
  | .ok m :: _ => m
  | _ => ⟨0, 0, 0, none, none⟩
def gMsg0 : SenderKeyMsg := gFirst (groupSend C protoSK gName gSender gSends).1

/-- Non-vacuity of C30: a history in which the message is processed, decrypted, and replayed. -/
example : ((gRun C protoSK GStore.empty ([.process gName gSkdm] ++ .decrypt gName gMsg0 :: [.process gName (newSKDM 5 0 [1] (key 8))])).decrypt C protoSK
    gName gMsg0).1.isOk = false := by
  refine C30_no_replay C protoSK gName gMsg0 gMsg0 [.process gName gSkdm] [.process gName (newSKDM 5 0 [1] (key 8))] ?_ (by decide +kernel) rfl rfl
  refine ⟨?_, (show gMsg0.iteration.toNat ≠ 2 ^ 32 - 1 by decide +kernel), ?_, trivial⟩
  · intro r hr; simp [GStore.empty, GStore.load] at hr
  · intro r hr
    have hlen : ((gRun C protoSK GStore.empty [.process gName gSkdm, .decrypt gName gMsg0]).load gName).map (·.map List.length) = .ok (some 1) := by
      decide +kernel
    have hr' : (gRun C protoSK GStore.empty [.process gName gSkdm, .decrypt gName gMsg0]).load gName = .ok (some r) := hr
    rw [hr'] at hlen
    simp at hlen
    omega

/-- Non-vacuity of C31: an honest message decrypts, a tampered one is rejected. -/
example : ((GStore.empty.process gName gSkdm).2.decrypt C protoSK gName gMsg0).1 = .ok [1, 2, 3] := by decide +kernel
example : ((GStore.empty.process gName gSkdm).2.decrypt C protoSK gName { gMsg0 with iteration := 1 }).1 = .err .signatureFailed := by
  decide +kernel
example : ((GStore.empty.process gName gSkdm).2.decrypt C protoSK gName { gMsg0 with keyId := 1 }).1 = .err .noSenderKeyForId := by
  decide +kernel

/-- Non-vacuity of C32: the sender's record owns its key. -/
example : (groupSend C protoSK gName gSender gSends).1.map (·.map (·.iteration)) = [.ok 0, .ok 1, .ok 2] := by decide +kernel

/-- Non-vacuity of C33: a second sender key with the same id is shadowed by the first. -/
def gSkdm2 : SKDMsg := match (GStore.empty.create C (gDraws 40 77) gName).1 with
  | .ok m => m
  | _ => newSKDM 0 0 [] (key 0)
def gMsg2 : SenderKeyMsg := gFirst (groupSend C protoSK gName (GStore.empty.create C (gDraws 40 77) gName).2 gSends).1
example : ((GStore.empty.process gName gSkdm2).2.decrypt C protoSK gName gMsg2).1 = .ok [1, 2, 3] ∧
    (((GStore.empty.process gName gSkdm).2.process gName gSkdm2).2.decrypt C protoSK gName gMsg2).1 = .err .signatureFailed := by
  decide +kernel
/-- Non-vacuity of C23: the receiver's record, before and after a reload. -/
example : (groupEncrypt C protoSK gRand (some (groupProcess none gSkdm)) [1]).1 = .panic ∧
    ((GStore.empty.process gName gSkdm).2.encrypt C protoSK gRand gName [1]).1.isOk = true := by decide +kernel
end

end Verif
