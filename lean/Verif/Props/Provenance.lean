import Verif.Props.Robust
import Verif.Props.Secrecy
import Verif.Model.Deeds
/-
C96: whatever a user does and receives, and wherever it dies, every message it accepts or sends belongs to a session that was set up, under that address, with an
identity the application accepted at that time.
-/
set_option linter.unusedSimpArgs false
namespace Verif

/-! ### What is claimed -/

/-- The call, made by user `n`, sets up session state `s0` with the identity `k` under address `a`: `ProcessBundle` of a bundle signed with `k`, or `DecryptMessage` of a prekey
message that names `k`; in both cases the application said that `k` may be trusted for `a`. -/
inductive SetUp (E : Env) (n : Node) (a : Addr) : Call → Key32 → SState → Prop
  | bundle {b : Bundle} {spk : Key32} {r : Rec} {pos' : Nat} {effs : List Effect} : E.trusted n.st.identities a b.identityKey = true →
      b.signedPreKeyPublic = some spk → E.C.verify b.identityKey (serPub spk) b.signature = true →
      buildFromBundle E n.pos a Rec.new b spk = (.ok (), r, pos', effs) → SetUp E n a (.processBundle a b) b.identityKey r.state
  | message {m : PreKeyMsg} {id : Option OptU32} {r : Rec} : E.trusted n.st.identities a m.identityKey = true →
      processV3 E n.st.preKeys n.st.signedPreKeys Rec.new m = (.ok id, r) → SetUp E n a (.decryptPreKey a m) m.identityKey r.state

/-- In the course of `ds` the session state `s0` with identity `k` was set up under address `a`, and the sessions under `a` were not deleted since. -/
def Acquired (E : Env) (n0 : Node) (ds : List Deed) (a : Addr) (k : Key32) (s0 : SState) : Prop :=
  ∃ pre c dies post, ds = pre ++ ⟨.call c, dies⟩ :: post ∧ (∀ d ∈ post, d.what ≠ .deleteSession a) ∧ SetUp E (n0.deeds E pre) a c k s0

/-! ### Predicates kept by the ratchet -/

/-- The predicate survives encryption and all attempts to decrypt. -/
structure Lasting (E : Env) (P : SState → Prop) : Prop where
  dec : ∀ d s m, P s → P (decryptWithState E d s m).2.1
  enc : ∀ s pt cm s', P s → encryptState E s pt = (.ok cm, s') → P s'

/-- All states of the record satisfy it. -/
structure Rec.All (P : SState → Prop) (r : Rec) : Prop where
  states : ∀ b ∈ r.cur :: r.prev, P (r.heap b)
  below : ∀ b ∈ r.cur :: r.prev, b < r.next

theorem Rec.All.set {P : SState → Prop} {r : Rec} (h : r.All P) (b : Nat) {s : SState} (hs : P s) : (r.set b s).All P := by
  refine ⟨fun x hx => ?_, h.below⟩
  rw [Rec.set_heap]
  split
  · exact hs
  · exact h.states x hx

theorem Rec.All.mono {P Q : SState → Prop} {r : Rec} (h : r.All P) (hPQ : ∀ s, P s → Q s) : r.All Q := ⟨fun b hb => hPQ _ (h.states b hb), h.below⟩

theorem Rec.All.start {P : SState → Prop} {r : Rec} (h : r = Rec.new ∨ r.fresh = false ∧ r.All P) {s : SState} (hs : P s) :
    ((if r.fresh then r else r.archiveCurrentState).set (if r.fresh then r else r.archiveCurrentState).cur s).All P := by
  rcases h with rfl | ⟨hf, hw⟩
  · refine ⟨fun b hb => ?_, fun b hb => ?_⟩
    · have : b = 0 := by simpa [Rec.new, Rec.set] using hb
      subst this
      simpa [Rec.new, Rec.set] using hs
    · have : b = 0 := by simpa [Rec.new, Rec.set] using hb
      subst this
      simp [Rec.new, Rec.set]
  · rw [hf]
    simp only [Bool.false_eq_true, if_false]
    have hm : ∀ x ∈ r.archiveCurrentState.cur :: r.archiveCurrentState.prev, x = r.next ∨ x ∈ r.cur :: r.prev := by
      intro x hx
      rcases List.mem_cons.1 hx with rfl | hx
      · exact .inl rfl
      · exact .inr (mem_promoted hx)
    refine ⟨fun b hb => ?_, fun b hb => ?_⟩
    · rw [Rec.set_heap]
      split
      · exact hs
      · rename_i hne
        rcases hm b hb with rfl | hb
        · exact absurd rfl hne
        · have := hw.below b hb
          show P (if b = r.next then _ else _ : SState)
          rw [if_neg (by omega)]
          exact hw.states b hb
    · show b < r.next + 1
      rcases hm b hb with rfl | hb
      · omega
      · have := hw.below b hb; omega

theorem Rec.start_state {r : Rec} (h : r = Rec.new ∨ r.fresh = false) : (if r.fresh then r else r.archiveCurrentState).state = SState.new := by
  rcases h with rfl | hf
  · rfl
  · rw [hf]; simp [Rec.archiveCurrentState, Rec.promote, Rec.state]

theorem tryPrevious_all {E : Env} {P : SState → Prop} (hP : Lasting E P) (m : SignalMsg) : ∀ (l : List Nat) (i : Nat) (r : Rec) (pos : Nat), r.All P → (∀ b ∈ l, b ∈ r.prev) →
    (tryPrevious E m l i r pos).2.1.All P ∧
    ∀ x, (tryPrevious E m l i r pos).1 = .ok x → ∃ d s b, P s ∧ decryptWithState E d s m = (.ok x, (tryPrevious E m l i r pos).2.1.state, b)
  | [], _, _, _, h, _ => ⟨h, by simp [tryPrevious]⟩
  | a :: l, i, r, pos, h, hl => by
    unfold tryPrevious
    have hs := h.states a (List.mem_cons_of_mem _ (hl a (List.mem_cons_self ..)))
    have hw := hP.dec (E.rng pos) _ m hs
    cases hg : decryptWithState E (E.rng pos) (r.heap a) m with
    | mk g y =>
    obtain ⟨s', d⟩ := y
    rw [hg] at hw
    have h2 := h.set a hw
    cases g with
    | err e => exact tryPrevious_all hP m l _ _ _ h2 (fun b hb => hl b (List.mem_cons_of_mem _ hb))
    | panic => exact ⟨h2, by simp⟩
    | ok x =>
      have hm : ∀ x ∈ r.prev.eraseIdx i ++ r.prev.drop (r.prev.length - 1), x ∈ r.prev := by
        intro x hx
        rcases List.mem_append.1 hx with hx | hx
        · exact List.mem_of_mem_eraseIdx hx
        · exact List.mem_of_mem_drop hx
      have key : ∀ x ∈ a :: (if archivedStatesMaxLength < (r.cur :: (r.prev.eraseIdx i ++ r.prev.drop (r.prev.length - 1))).length then
          (r.cur :: (r.prev.eraseIdx i ++ r.prev.drop (r.prev.length - 1))).dropLast else r.cur :: (r.prev.eraseIdx i ++ r.prev.drop (r.prev.length - 1))),
          x ∈ r.cur :: r.prev := by
        intro x hx
        rcases List.mem_cons.1 hx with rfl | hx
        · exact List.mem_cons_of_mem _ (hl _ (List.mem_cons_self ..))
        · rcases List.mem_cons.1 (mem_promoted hx) with rfl | hx
          · exact List.mem_cons_self ..
          · exact List.mem_cons_of_mem _ (hm x hx)
      refine ⟨⟨fun x hx => h2.states x (key x hx), fun x hx => h2.below x (key x hx)⟩, ?_⟩
      intro x' hx'
      simp only [Res.ok.injEq] at hx'
      subst hx'
      refine ⟨E.rng pos, r.heap a, d, hs, ?_⟩
      rw [hg]
      simp [Rec.promote, Rec.state, Rec.set]

theorem decryptWithRecord_all {E : Env} {P : SState → Prop} (hP : Lasting E P) (m : SignalMsg) (pos : Nat) {r : Rec} (h : r.All P) :
    (decryptWithRecord E pos r m).2.1.All P ∧
    ∀ x, (decryptWithRecord E pos r m).1 = .ok x → ∃ d s b, P s ∧ decryptWithState E d s m = (.ok x, (decryptWithRecord E pos r m).2.1.state, b) := by
  unfold decryptWithRecord
  have hs := h.states r.cur (List.mem_cons_self ..)
  have hw := hP.dec (E.rng pos) _ m hs
  cases hg : decryptWithState E (E.rng pos) (r.heap r.cur) m with
  | mk g y =>
  obtain ⟨s', d⟩ := y
  rw [hg] at hw
  have h2 := h.set r.cur hw
  cases g with
  | ok x =>
    refine ⟨h2, fun x' hx' => ?_⟩
    simp only [Res.ok.injEq] at hx'
    subst hx'
    exact ⟨_, _, d, hs, by rw [hg]; simp [Rec.state, Rec.set]⟩
  | panic => exact ⟨h2, by simp⟩
  | err e => exact tryPrevious_all hP m _ _ _ _ h2 (fun b hb => hb)

/-! ### Stores -/

/-- All stored sessions satisfy it. -/
def Store.All (P : Addr → SState → Prop) (st : Store) : Prop :=
  ∀ a ss, st.sessions a = some ss → ∃ r, Rec.ofStruct ss = .ok r ∧ r.fresh = false ∧ r.All (P a)

theorem Store.All.load {P : Addr → SState → Prop} {st : Store} (h : st.All P) (a : Addr) :
    ∃ r, st.load a = .ok r ∧ (r = Rec.new ∨ r.fresh = false ∧ r.All (P a)) ∧ (st.sessions a ≠ none → r.All (P a)) := by
  unfold Store.load
  cases hs : st.sessions a with
  | none => exact ⟨Rec.new, rfl, .inl rfl, by simp⟩
  | some ss =>
    obtain ⟨r, h1, h2, h3⟩ := h a ss hs
    simp only [h1]
    exact ⟨r, rfl, .inr ⟨h2, h3⟩, fun _ => h3⟩

theorem Rec.All.all {P : SState → Prop} {r : Rec} (h : r.All P) : ∀ s ∈ r.state :: r.prevStates, P s := by
  intro s hs
  rcases List.mem_cons.1 hs with rfl | hs
  · exact h.states _ (List.mem_cons_self ..)
  · obtain ⟨b, hb, rfl⟩ := List.mem_map.1 hs
    exact h.states b (List.mem_cons_of_mem _ hb)

theorem ofStates_all {P : SState → Prop} {s : SState} {ps : List SState} (h : ∀ x ∈ s :: ps, P x) : (Rec.ofStates s ps).All P := by
  have hb : ∀ b ∈ (Rec.ofStates s ps).cur :: (Rec.ofStates s ps).prev, b < ps.length + 1 := by
    intro b hb
    rcases List.mem_cons.1 hb with rfl | hb
    · exact Nat.succ_pos _
    · obtain ⟨i, hi, rfl⟩ := List.mem_map.1 hb
      have := List.mem_range.1 hi
      omega
  refine ⟨fun b hm => ?_, hb⟩
  have := hb b hm
  show P (((s :: ps)[b]?).getD SState.new)
  rw [List.getElem?_eq_getElem (by simpa using this)]
  exact h _ (List.getElem_mem _)

theorem Store.All.mono {P Q : Addr → SState → Prop} {st : Store} (h : st.All P) (hPQ : ∀ a s, P a s → Q a s) : st.All Q := by
  intro a ss hs
  obtain ⟨r, h1, h2, h3⟩ := h a ss hs
  exact ⟨r, h1, h2, h3.mono (hPQ a)⟩

/-- Store operations that store only such sessions, whether all of them succeed or not. -/
theorem applyAll_all {P : Addr → SState → Prop} {effs : List Effect} : ∀ {st : Store}, st.All P → (∀ a r, Effect.storeSession a r ∈ effs → r.All (P a)) →
    (st.applyAll effs).1.All P := by
  induction effs with
  | nil => intro st h _; exact h
  | cons e effs ih =>
    intro st h he
    unfold Store.applyAll
    cases hx : st.apply e with
    | none => exact h
    | some st' =>
      refine ih ?_ (fun a r hr => he a r (List.mem_cons_of_mem _ hr))
      cases e with
      | saveIdentity a k => simp only [Store.apply, Option.some.injEq] at hx; subst hx; exact h
      | removePreKey id => simp only [Store.apply, Option.some.injEq] at hx; subst hx; exact h
      | storeSession a r =>
        have hw := he a r (List.mem_cons_self ..)
        cases hss : r.toStruct with
        | err e => simp [Store.apply, hss] at hx
        | panic => simp [Store.apply, hss] at hx
        | ok ss =>
          simp only [Store.apply, hss, Option.some.injEq] at hx
          subst hx
          intro b x hx
          by_cases hb : b = a
          · subst hb
            simp only [upd, if_true, Option.some.injEq] at hx
            subst hx
            exact ⟨_, Rec.ofStruct_toStruct hss, rfl, ofStates_all hw.all⟩
          · simp only [upd, if_neg hb] at hx
            exact h b x hx

theorem finish_store {α : Type} (st : Store) (res : Res α) (effs : List Effect) : (finish st res effs).2 = (st.applyAll effs).1 := by
  unfold finish
  cases hx : st.applyAll effs with
  | mk st' b => cases b <;> rfl

/-! ### The four calls -/

/-- The state `processV3` builds. -/
def recvState (E : Env) (m : PreKeyMsg) (sp : IdKeyPair) (keys : SessionKeys) : SState :=
  { ({ SState.new with version := currentVersion, remoteIdentity := some m.identityKey, localIdentity := some E.identity.pub } : SState).setSenderChain ⟨sp.pub, some sp.priv⟩ keys.chain with
    rootKey := some keys.root, localRegistrationId := E.registrationId, remoteRegistrationId := m.struct.registrationId, senderBaseKey := some m.baseKey }

/-- What processing a prekey message makes of the record: nothing, or a new current state. -/
theorem processV3_ok {E : Env} {pk spk : UInt32 → Option IdKeyPair} {r r1 : Rec} {m : PreKeyMsg} {id : Option OptU32} (hr : r = Rec.new ∨ r.fresh = false)
    (h : processV3 E pk spk r m = (.ok id, r1)) :
    (r.hasSessionState m.struct.version (serPub m.baseKey) = true ∧ r1 = r) ∨
    ∃ r0 s0, processV3 E pk spk Rec.new m = (.ok id, r0) ∧ r0.state = s0 ∧
      r1 = (if r.fresh then r else r.archiveCurrentState).set (if r.fresh then r else r.archiveCurrentState).cur s0 := by
  have hst := Rec.start_state hr
  have hn : Rec.new.hasSessionState m.struct.version (serPub m.baseKey) = false := by
    have : (serPub m.baseKey == ([] : Bytes)) = false := by simp [serPub]
    simp [Rec.hasSessionState, Rec.new, Rec.state, Rec.prevStates, SState.new, this]
  have hnf : Rec.new.fresh = true := rfl
  have hns : Rec.new.state = SState.new := rfl
  unfold processV3 at h ⊢
  by_cases hk : r.hasSessionState m.struct.version (serPub m.baseKey) = true
  · rw [if_pos hk] at h
    simp only [Prod.mk.injEq] at h
    exact .inl ⟨hk, h.2.symm⟩
  · rw [if_neg hk] at h
    rw [if_neg (by rw [hn]; simp)]
    refine .inr ?_
    cases h1 : spk m.struct.signedPreKeyId with
    | none => simp [h1] at h
    | some sp =>
      simp only [h1] at h ⊢
      have tail : ∀ (ot : Option Key32) (p p' : Rec) (ret : Option OptU32), p'.state = SState.new →
          (match calculateReceiverSession E.C { ourIdentity := E.identity, ourSignedPreKeyPriv := sp.priv, ourOneTimePriv := ot, theirBase := m.baseKey, theirIdentity := m.identityKey } with
            | .err e => (.err e, p)
            | .panic => (.panic, p)
            | .ok keys => (.ok ret, p.set p.cur (recvState E m sp keys)) : Res (Option OptU32) × Rec) = (.ok id, r1) →
          ∃ r0 s0, (match calculateReceiverSession E.C { ourIdentity := E.identity, ourSignedPreKeyPriv := sp.priv, ourOneTimePriv := ot, theirBase := m.baseKey, theirIdentity := m.identityKey } with
            | .err e => (.err e, p')
            | .panic => (.panic, p')
            | .ok keys => (.ok ret, p'.set p'.cur (recvState E m sp keys)) : Res (Option OptU32) × Rec) = (.ok id, r0) ∧ r0.state = s0 ∧ r1 = p.set p.cur s0 := by
        intro ot p p' ret _ h
        generalize calculateReceiverSession E.C _ = g at h ⊢
        cases g with
        | err e => simp at h
        | panic => simp at h
        | ok keys =>
          simp only [Prod.mk.injEq] at h ⊢
          exact ⟨_, _, ⟨h.1, rfl⟩, rfl, by rw [← h.2]; simp [Rec.state, Rec.set]⟩
      cases hid : m.struct.preKeyId with
      | none =>
        simp only [hid] at h ⊢
        rw [hst] at h
        exact tail none _ Rec.new _ rfl h
      | some o =>
        simp only [hid] at h ⊢
        cases hpk : pk o.value with
        | none => simp [hpk] at h
        | some kp =>
          simp only [hpk] at h ⊢
          rw [hst] at h
          exact tail (some kp.priv) _ Rec.new _ rfl h

theorem encryptOps_all {E : Env} {P : Addr → SState → Prop} (hP : ∀ a, Lasting E (P a)) {st : Store} (h : st.All P) (a : Addr) (pt : Bytes) :
    ∀ b r, Effect.storeSession b r ∈ (st.encryptTrace E a pt).2 → b = a ∧ r.All (P a) := by
  obtain ⟨r0, hl, hor, hall⟩ := h.load a
  unfold Store.encryptTrace
  simp only [hl]
  unfold encryptRec
  cases hg : encryptState E r0.state pt with
  | mk g s' =>
  cases g with
  | err e => simp
  | panic => simp
  | ok cm =>
    intro b r hm
    simp at hm
    obtain ⟨rfl, rfl⟩ := hm
    refine ⟨rfl, ?_⟩
    rcases hor with rfl | ⟨-, hw⟩
    · simp [encryptState, Rec.new, Rec.state, SState.new] at hg
    · exact hw.set _ ((hP b).enc _ _ _ _ (hw.states _ (List.mem_cons_self ..)) hg)

theorem decryptOps_all {E : Env} {P : Addr → SState → Prop} (hP : ∀ a, Lasting E (P a)) {st : Store} (h : st.All P) (pos : Nat) (a : Addr) (m : SignalMsg) :
    ∀ b r, Effect.storeSession b r ∈ (st.decryptTrace E pos a m).2.2 → b = a ∧ r.All (P a) := by
  obtain ⟨r0, hl, hor, hall⟩ := h.load a
  unfold Store.decryptTrace
  cases hs : st.sessions a with
  | none => simp
  | some ss =>
    have hw := hall (by rw [hs]; simp)
    have hd := (decryptWithRecord_all (hP a) m pos hw).1
    simp only [hl]
    unfold decryptRec
    generalize decryptWithRecord E pos r0 m = g at hd
    obtain ⟨g, r', pos'⟩ := g
    cases g with
    | err e => simp
    | panic => simp
    | ok x =>
      intro b r hm
      simp at hm
      obtain ⟨rfl, rfl⟩ := hm
      exact ⟨rfl, hd⟩

/-- The record in which `DecryptMessage` looks for the session. -/
theorem process_all {E : Env} {P : SState → Prop} {ids : Addr → Option Key32} {pk spk : UInt32 → Option IdKeyPair} {a : Addr} {r r1 : Rec} {m : PreKeyMsg} {id : Option OptU32}
    {effs : List Effect} (hr : r = Rec.new ∨ r.fresh = false ∧ r.All P) (h : process E ids pk spk a r m = (.ok id, r1, effs))
    (hnew : ∀ r0, E.trusted ids a m.identityKey = true → processV3 E pk spk Rec.new m = (.ok id, r0) → P r0.state) :
    r1.All P ∧ effs = [.saveIdentity a (some m.identityKey)] := by
  unfold process at h
  cases ht : E.trusted ids a m.identityKey with
  | false => simp [ht] at h
  | true =>
    simp only [ht, Bool.true_eq_false, if_false] at h
    cases hg : processV3 E pk spk r m with
    | mk g r' =>
    rw [hg] at h
    cases g with
    | err e => simp at h
    | panic => simp at h
    | ok o =>
      simp only [Prod.mk.injEq, Res.ok.injEq] at h
      obtain ⟨rfl, rfl, rfl⟩ := h
      refine ⟨?_, rfl⟩
      rcases processV3_ok (hr.imp id And.left) hg with ⟨hk, rfl⟩ | ⟨r0, s0, h1, rfl, rfl⟩
      · rcases hr with rfl | ⟨-, hw⟩
        · exfalso
          have : (serPub m.baseKey == ([] : Bytes)) = false := by simp [serPub]
          simp [Rec.hasSessionState, Rec.new, Rec.state, Rec.prevStates, SState.new, this] at hk
        · exact hw
      · exact Rec.All.start hr (hnew r0 ht h1)

theorem decryptPreKeyOps_all {E : Env} {P : Addr → SState → Prop} (hP : ∀ a, Lasting E (P a)) {st : Store} (h : st.All P) (pos : Nat) (a : Addr) (m : PreKeyMsg)
    (hnew : ∀ id r0, E.trusted st.identities a m.identityKey = true → processV3 E st.preKeys st.signedPreKeys Rec.new m = (.ok id, r0) → P a r0.state) :
    ∀ b r, Effect.storeSession b r ∈ (st.decryptPreKeyTrace E pos a m).2.2 → b = a ∧ r.All (P a) := by
  obtain ⟨r0, hl, hor, hall⟩ := h.load a
  unfold Store.decryptPreKeyTrace
  simp only [hl]
  unfold decryptPreKeyRec
  cases hp : process E st.identities st.preKeys st.signedPreKeys a r0 m with
  | mk g y =>
  obtain ⟨r1, eff⟩ := y
  have hno : ∀ {res : Res (Option OptU32)}, process E st.identities st.preKeys st.signedPreKeys a r0 m = (res, r1, eff) → (∀ id, res ≠ .ok id) → eff = [] := by
    intro res hp' hn
    unfold process at hp'
    split at hp'
    · cases hp'; rfl
    · generalize processV3 E st.preKeys st.signedPreKeys r0 m = q at hp'
      obtain ⟨q, rq⟩ := q
      cases q with
      | err e => cases hp'; rfl
      | panic => cases hp'; rfl
      | ok id => cases hp'; exact absurd rfl (hn _)
  cases g with
  | err e => rw [hno hp (by simp)]; simp
  | panic => rw [hno hp (by simp)]; simp
  | ok id =>
    obtain ⟨hw, rfl⟩ := process_all (P := P a) hor hp (fun r0 => hnew id r0)
    have hd := (decryptWithRecord_all (hP a) m.message pos hw).1
    simp only
    generalize decryptWithRecord E pos r1 m.message = g at hd
    obtain ⟨g, r', pos'⟩ := g
    intro b r hm
    cases g with
    | err e => simp at hm
    | panic => simp at hm
    | ok x =>
      cases id with
      | none =>
        simp at hm
        obtain ⟨rfl, rfl⟩ := hm
        exact ⟨rfl, hd⟩
      | some o =>
        simp only at hm
        split at hm
        · simp at hm
          obtain ⟨rfl, rfl⟩ := hm
          exact ⟨rfl, hd⟩
        · simp at hm
          obtain ⟨rfl, rfl⟩ := hm
          exact ⟨rfl, hd⟩

theorem buildFromBundle_new {E : Env} {pos pos' : Nat} {a : Addr} {r r' : Rec} {b : Bundle} {spk : Key32} {effs : List Effect} (hr : r = Rec.new ∨ r.fresh = false)
    (h : buildFromBundle E pos a r b spk = (.ok (), r', pos', effs)) :
    ∃ r0 effs', buildFromBundle E pos a Rec.new b spk = (.ok (), r0, pos', effs') ∧
      r' = (if r.fresh then r else r.archiveCurrentState).set (if r.fresh then r else r.archiveCurrentState).cur r0.state := by
  obtain ⟨base, bp, ratchet, derived, sending, h1, h2, h3, h4, h5, h6, h7, h8⟩ := buildFromBundle_ok h
  rw [Rec.start_state hr] at h6
  refine ⟨Rec.new.set 0 (initSenderState E SState.new b spk base ratchet derived sending),
    [.storeSession a (Rec.new.set 0 (initSenderState E SState.new b spk base ratchet derived sending)), .saveIdentity a (some b.identityKey)], ?_, ?_⟩
  · unfold buildFromBundle
    simp only [h1, h2, h3, h4, h5, h7]
    rfl
  · rw [h6]
    simp [Rec.state, Rec.set, Rec.new]

theorem buildFromBundle_panic_effs {E : Env} {pos pos' : Nat} {a : Addr} {r r' : Rec} {b : Bundle} {spk : Key32} {effs : List Effect}
    (h : buildFromBundle E pos a r b spk = (.panic, r', pos', effs)) : effs = [] := by
  unfold buildFromBundle at h
  revert h
  repeat' (first | (intro h; cases h; rfl) | split)
  all_goals (intro h; cases h)

theorem processBundleOps_all {E : Env} {P : Addr → SState → Prop} {st : Store} (h : st.All P) (pos : Nat) (a : Addr) (b : Bundle)
    (hnew : ∀ spk r0 pos' effs, E.trusted st.identities a b.identityKey = true → b.signedPreKeyPublic = some spk →
      E.C.verify b.identityKey (serPub spk) b.signature = true → buildFromBundle E pos a Rec.new b spk = (.ok (), r0, pos', effs) → P a r0.state) :
    ∀ c r, Effect.storeSession c r ∈ (st.processBundleTrace E pos a b).2.2 → c = a ∧ r.All (P a) := by
  obtain ⟨r0, hl, hor, hall⟩ := h.load a
  unfold Store.processBundleTrace
  cases hc : checkBundle E st.identities a b with
  | err e => simp
  | panic => simp
  | ok spk =>
    simp only [hl]
    have hchk : E.trusted st.identities a b.identityKey = true ∧ b.signedPreKeyPublic = some spk ∧ E.C.verify b.identityKey (serPub spk) b.signature = true := by
      unfold checkBundle at hc
      cases ht : E.trusted st.identities a b.identityKey with
      | false => simp [ht] at hc
      | true =>
        simp only [ht, Bool.true_eq_false, if_false] at hc
        cases hs : b.signedPreKeyPublic with
        | none => simp [hs] at hc
        | some sp =>
          simp only [hs] at hc
          cases hv : E.C.verify b.identityKey (serPub sp) b.signature with
          | false => simp [hv] at hc
          | true => simp only [hv, Bool.true_eq_false, if_false, Res.ok.injEq] at hc; subst hc; exact ⟨rfl, rfl, hv⟩
    cases hg : buildFromBundle E pos a r0 b spk with
    | mk g y =>
    obtain ⟨r1, p1, effs⟩ := y
    cases g with
    | err e => rw [buildFromBundle_err_effs hg]; simp
    | panic => rw [buildFromBundle_panic_effs hg]; simp
    | ok u =>
      obtain ⟨r00, effs', k1, k2⟩ := buildFromBundle_new (hor.imp id And.left) hg
      obtain ⟨-, -, -, -, -, -, -, -, -, -, -, -, he⟩ := buildFromBundle_ok hg
      subst he
      intro c r hm
      simp at hm
      obtain ⟨rfl, rfl⟩ := hm
      rw [k2]
      exact ⟨rfl, Rec.All.start hor (hnew spk r00 p1 effs' hchk.1 hchk.2.1 hchk.2.2 k1)⟩

/-! ### Lives -/

theorem History.lasting (E : Env) (Q : SState → Prop) : Lasting E (fun s => ∃ s0 evs, Q s0 ∧ History E s0 s evs) := by
  constructor
  · rintro d s m ⟨s0, evs, hq, h⟩
    cases hg : decryptWithState E d s m with
    | mk g y =>
    obtain ⟨s', b⟩ := y
    cases g with
    | ok x => obtain ⟨pt, mk⟩ := x; exact ⟨s0, _, hq, h.received hg⟩
    | err e => exact ⟨s0, _, hq, h.failed hg rfl⟩
    | panic => exact ⟨s0, _, hq, h.failed hg rfl⟩
  · rintro s pt cm s' ⟨s0, evs, hq, h⟩ he
    exact ⟨s0, _, hq, h.sent he⟩

/-- The state came about by using a session that was set up. -/
def Sprung (E : Env) (n0 : Node) (ds : List Deed) (a : Addr) (s : SState) : Prop :=
  ∃ s0 evs, (∃ k, Acquired E n0 ds a k s0) ∧ History E s0 s evs

theorem Sprung.lasting (E : Env) (n0 : Node) (ds : List Deed) (a : Addr) : Lasting E (Sprung E n0 ds a) := History.lasting E _

theorem Acquired.later {E : Env} {n0 : Node} {ds : List Deed} {a : Addr} {k : Key32} {s0 : SState} (h : Acquired E n0 ds a k s0) (d : Deed)
    (hd : d.what ≠ .deleteSession a) : Acquired E n0 (ds ++ [d]) a k s0 := by
  obtain ⟨pre, c, dies, post, rfl, h1, h2⟩ := h
  refine ⟨pre, c, dies, post ++ [d], by simp, ?_, h2⟩
  intro x hx
  rcases List.mem_append.1 hx with hx | hx
  · exact h1 x hx
  · rw [List.mem_singleton] at hx; subst hx; exact hd

theorem SetUp.acquired {E : Env} {n0 : Node} {ds : List Deed} {a : Addr} {c : Call} {k : Key32} {s0 : SState} (h : SetUp E (n0.deeds E ds) a c k s0) (dies : Option Nat) :
    Acquired E n0 (ds ++ [⟨.call c, dies⟩]) a k s0 := ⟨ds, c, dies, [], rfl, by simp, h⟩

theorem deeds_append (E : Env) (n : Node) (ds : List Deed) (d : Deed) : n.deeds E (ds ++ [d]) = (n.deeds E ds).deed E d := by
  simp [Node.deeds, List.foldl_append]

/-- The store operations of any call store only sessions that were set up. -/
theorem callOps_sprung {E : Env} {n0 : Node} {ds : List Deed} (h : (n0.deeds E ds).st.All (Sprung E n0 ds)) (c : Call) (dies : Option Nat) :
    ∀ b r, Effect.storeSession b r ∈ ((n0.deeds E ds).st.callOps E (n0.deeds E ds).pos c).1 → r.All (Sprung E n0 (ds ++ [⟨.call c, dies⟩]) b) := by
  have hm : (n0.deeds E ds).st.All (Sprung E n0 (ds ++ [⟨.call c, dies⟩])) :=
    h.mono fun a s ⟨s0, evs, ⟨k, hk⟩, hh⟩ => ⟨s0, evs, ⟨k, hk.later _ (by simp)⟩, hh⟩
  have hP := Sprung.lasting E n0 (ds ++ [⟨.call c, dies⟩])
  intro b r hr
  cases c with
  | encrypt a pt =>
    obtain ⟨rfl, hx⟩ := encryptOps_all hP hm a pt b r hr
    exact hx
  | decrypt a m =>
    obtain ⟨rfl, hx⟩ := decryptOps_all hP hm _ a m b r hr
    exact hx
  | decryptPreKey a m =>
    obtain ⟨rfl, hx⟩ := decryptPreKeyOps_all hP hm _ a m (fun id r0 ht h3 => ⟨_, [], ⟨_, (SetUp.message ht h3).acquired dies⟩, .start⟩) b r hr
    exact hx
  | processBundle a bd =>
    obtain ⟨rfl, hx⟩ := processBundleOps_all hm _ a bd (fun spk r0 pos' effs ht hs hv hb => ⟨_, [], ⟨_, (SetUp.bundle ht hs hv hb).acquired dies⟩, .start⟩) b r hr
    exact hx

theorem call_store (E : Env) (n : Node) (c : Call) : (n.errand E (.call c)).st = (n.st.applyAll (n.st.callOps E n.pos c).1).1 := by
  cases c with
  | encrypt a pt => exact finish_store ..
  | decrypt a m => exact finish_store ..
  | decryptPreKey a m => exact finish_store ..
  | processBundle a b => exact finish_store ..

theorem deed_sprung {E : Env} {n0 : Node} {ds : List Deed} (ih : (n0.deeds E ds).st.All (Sprung E n0 ds)) (d : Deed) :
    (n0.deeds E (ds ++ [d])).st.All (Sprung E n0 (ds ++ [d])) := by
  rw [deeds_append]
  obtain ⟨x, dies⟩ := d
  have hmono : (∀ a, x ≠ .deleteSession a) → (n0.deeds E ds).st.All (Sprung E n0 (ds ++ [⟨x, dies⟩])) := fun hx =>
    ih.mono fun a s ⟨s0, evs, ⟨k, hk⟩, hh⟩ => ⟨s0, evs, ⟨k, hk.later _ (hx a)⟩, hh⟩
  cases x with
  | call c =>
    have hops := callOps_sprung ih c dies
    cases dies with
    | none =>
      show ((n0.deeds E ds).errand E (.call c)).st.All _
      rw [call_store]
      exact applyAll_all (hmono (by simp)) hops
    | some k => exact applyAll_all (hmono (by simp)) (fun a r hr => hops a r (List.mem_of_mem_take hr))
  | deleteSession a =>
    intro b ss hb
    have hb' : upd (n0.deeds E ds).st.sessions a none b = some ss := by cases dies <;> exact hb
    by_cases hba : b = a
    · subst hba; simp [upd] at hb'
    · simp only [upd, if_neg hba] at hb'
      obtain ⟨r, h1, h2, h3⟩ := ih b ss hb'
      exact ⟨r, h1, h2, h3.mono fun s ⟨s0, evs, ⟨k, hk⟩, hh⟩ => ⟨s0, evs, ⟨k, hk.later _ (by simpa using fun e => hba e.symm)⟩, hh⟩⟩
  | generate => cases dies <;> exact hmono (by simp)
  | saveIdentity a k => cases dies <;> exact hmono (by simp)
  | storePreKey id kp => cases dies <;> exact hmono (by simp)
  | removePreKey id => cases dies <;> exact hmono (by simp)
  | storeSignedPreKey id kp => cases dies <;> exact hmono (by simp)
  | removeSignedPreKey id => cases dies <;> exact hmono (by simp)

theorem deeds_sprung (E : Env) (n0 : Node) (h0 : ∀ a, n0.st.sessions a = none) (ds : List Deed) : (n0.deeds E ds).st.All (Sprung E n0 ds) := by
  have key : ∀ (ds pre : List Deed), (n0.deeds E pre).st.All (Sprung E n0 pre) → (n0.deeds E (pre ++ ds)).st.All (Sprung E n0 (pre ++ ds)) := by
    intro ds
    induction ds with
    | nil => intro pre h; simpa using h
    | cons d ds ih =>
      intro pre h
      have := ih (pre ++ [d]) (deed_sprung h d)
      simpa using this
  refine key ds [] ?_
  intro a ss hs
  simp [Node.deeds, h0] at hs

theorem SetUp.identities {E : Env} {n : Node} {a : Addr} {c : Call} {k : Key32} {s0 : SState} (h : SetUp E n a c k s0) :
    s0.remoteIdentity = some k ∧ s0.localIdentity = some E.identity.pub ∧ s0.version = currentVersion := by
  cases h with
  | bundle ht hs hv hb =>
    obtain ⟨base, bp, ratchet, derived, sending, -, -, -, -, -, h6, -, -⟩ := buildFromBundle_ok hb
    rw [h6]
    simp [Rec.state, Rec.set, initSenderState, SState.setSenderChain, SState.addReceiverChain]
  | message ht h3 =>
    have hn := h3
    unfold processV3 at h3
    split at h3
    · rename_i hk
      exfalso
      have : ∀ b : Key32, (serPub b == ([] : Bytes)) = false := by intro b; simp [serPub]
      simp [Rec.hasSessionState, Rec.new, Rec.state, Rec.prevStates, SState.new, this] at hk
    · split at h3
      · cases h3
      · dsimp only at h3
        split at h3
        · cases h3
        · cases h3
        · split at h3
          · cases h3
          · cases h3
          · cases h3
            simp [Rec.state, Rec.set, SState.setSenderChain]

theorem History.identities {E : Env} {s0 s : SState} {evs : List Event} (h : History E s0 s evs) :
    s.remoteIdentity = s0.remoteIdentity ∧ s.localIdentity = s0.localIdentity ∧ s.version = s0.version := by
  induction h with
  | start => exact ⟨rfl, rfl, rfl⟩
  | sent _ he ih =>
    obtain ⟨sc, body, sm, -, -, -, hs, -⟩ := encryptState_ok he
    rw [hs]; exact ih
  | @received s s' evs draw m pt mk d _ he ih =>
    have := decryptWithState_kept E draw s m
    rw [he] at this
    exact ⟨this.remote.trans ih.1, this.loc.trans ih.2.1, this.version.trans ih.2.2⟩
  | @failed s s' evs draw m res d _ he hn ih =>
    have := decryptWithState_kept E draw s m
    rw [he] at this
    exact ⟨this.remote.trans ih.1, this.loc.trans ih.2.1, this.version.trans ih.2.2⟩

/-- A message that decrypts was authenticated with the identities of the state. -/
theorem decryptWithState_mac {E : Env} {d : Option Key32} {s s' : SState} {m : SignalMsg} {x : Bytes × MsgKeys} {b : Bool} (h : decryptWithState E d s m = (.ok x, s', b)) :
    m.verifyMac E.C E.S m.struct.version s.remoteIdentity s.localIdentity x.2.macKey = .ok () := by
  have hk := decryptWithState_kept E d s m
  rw [h] at hk
  unfold decryptWithState at h
  split at h
  · cases h
  · split at h
    · cases h
    · split at h
      · cases h
      · cases h
      · split at h
        · cases h
        · cases h
        · split at h
          · cases h
          · cases h
          · rename_i hv
            split at h
            · cases h
            · cases h
            · cases h
              have h1 := hk.remote
              have h2 := hk.loc
              simp only at h1 h2
              rw [← h1, ← h2]
              exact hv

/-- **C96.** In every life of a user that begins without sessions - any calls with any arguments, in particular any received messages, any operations on the stores, and dying
anywhere within a call -, a message that `Decrypt` or `DecryptMessage` accepts under an address, and a message that `Encrypt` makes, belongs to a session that was set up
under this address by `ProcessBundle` or `DecryptMessage` with an identity that the application then said was to be trusted for it, and not deleted since; nothing happened to that
session but encryption and decryption (`History`), and the message is authenticated with that identity and the user's own.
Missing: stores that hand out the live object, for which this is false (`C96_live_false`). -/
theorem C96_only_accepted_identities_partial (E : Env) (n0 : Node) (h0 : ∀ a, n0.st.sessions a = none) (ds : List Deed) (a : Addr) :
    let n := n0.deeds E ds
    (∀ m x st' pos', n.st.decrypt E n.pos a m = (.ok x, st', pos') →
      ∃ k s0 evs r', Acquired E n0 ds a k s0 ∧ st'.load a = .ok r' ∧ History E s0 r'.state (evs ++ [.received m x.1 x.2]) ∧
        m.verifyMac E.C E.S m.struct.version (some k) (some E.identity.pub) x.2.macKey = .ok ()) ∧
    (∀ m x st' pos', n.st.decryptPreKey E n.pos a m = (.ok x, st', pos') →
      ∃ k s0 evs r', Acquired E n0 (ds ++ [⟨.call (.decryptPreKey a m), none⟩]) a k s0 ∧ st'.load a = .ok r' ∧
        History E s0 r'.state (evs ++ [.received m.message x.1 x.2]) ∧
        m.message.verifyMac E.C E.S m.message.struct.version (some k) (some E.identity.pub) x.2.macKey = .ok ()) ∧
    (∀ pt cm st', StdSM E.S → pt.length < 2 ^ 63 → n.st.encrypt E a pt = (.ok cm, st') →
      ∃ k s0 evs r' macKey, Acquired E n0 ds a k s0 ∧ st'.load a = .ok r' ∧ History E s0 r'.state (evs ++ [.sent pt cm]) ∧
        cm.inner.verifyMac E.C E.S cm.inner.struct.version (some E.identity.pub) (some k) macKey = .ok ()) := by
  intro n
  have hall : n.st.All (Sprung E n0 ds) := deeds_sprung E n0 h0 ds
  have ids : ∀ {ds k s0 s evs}, Acquired E n0 ds a k s0 → History E s0 s evs →
      s.remoteIdentity = some k ∧ s.localIdentity = some E.identity.pub ∧ s.version = currentVersion := by
    intro ds k s0 s evs hk hh
    obtain ⟨_, c, _, _, _, _, hset⟩ := hk
    obtain ⟨h1, h2, h5⟩ := hset.identities
    obtain ⟨h3, h4, h6⟩ := hh.identities
    exact ⟨h3.trans h1, h4.trans h2, h6.trans h5⟩
  refine ⟨fun m x st' pos' h => ?_, fun m x st' pos' h => ?_, fun pt cm st' hS hpt h => ?_⟩
  · obtain ⟨r, r', h1, h2, h3, h4, -⟩ := Store.decrypt_ok h
    obtain ⟨r2, g1, -, g3⟩ := hall.load a
    rw [h1] at g1
    cases g1
    have hw := g3 (by intro hn; rw [hn] at h2; simp at h2)
    obtain ⟨d, s, b, ⟨s0, evs, ⟨k, hk⟩, hh⟩, hd⟩ := (decryptWithRecord_all (Sprung.lasting E n0 ds a) m n.pos hw).2 x (by rw [h3])
    rw [h3] at hd
    obtain ⟨i1, i2, i3⟩ := ids hk hh
    have hv := decryptWithState_mac hd
    rw [i1, i2] at hv
    exact ⟨k, s0, evs, _, hk, h4, hh.received hd, hv⟩
  · obtain ⟨r, r1, r', id, h1, h2, h3, h4, -⟩ := Store.decryptPreKey_ok h
    have hall' : n.st.All (Sprung E n0 (ds ++ [⟨.call (.decryptPreKey a m), none⟩])) :=
      hall.mono fun a s ⟨s0, evs, ⟨k, hk⟩, hh⟩ => ⟨s0, evs, ⟨k, hk.later _ (by simp)⟩, hh⟩
    obtain ⟨r2, g1, g2, -⟩ := hall'.load a
    rw [h1] at g1
    cases g1
    obtain ⟨hw, -⟩ := process_all g2 h2 (fun r0 ht hp => ⟨_, [], ⟨_, (SetUp.message ht hp).acquired none⟩, .start⟩)
    obtain ⟨d, s, b, ⟨s0, evs, ⟨k, hk⟩, hh⟩, hd⟩ := (decryptWithRecord_all (Sprung.lasting E n0 _ a) m.message n.pos hw).2 x (by rw [h3])
    rw [h3] at hd
    obtain ⟨i1, i2, i3⟩ := ids hk hh
    have hv := decryptWithState_mac hd
    rw [i1, i2] at hv
    exact ⟨k, s0, evs, _, hk, h4, hh.received hd, hv⟩
  · obtain ⟨r, s', h1, h2, h3, -⟩ := Store.encrypt_ok h
    obtain ⟨r2, g1, g2, -⟩ := hall.load a
    rw [h1] at g1
    cases g1
    rcases g2 with rfl | ⟨-, hw⟩
    · simp [encryptState, Rec.new, Rec.state, SState.new] at h2
    obtain ⟨s0, evs, ⟨k, hk⟩, hh⟩ := hw.states _ (List.mem_cons_self ..)
    obtain ⟨i1, i2, i3⟩ := ids hk hh
    obtain ⟨sc, body, -, -, hm, -, -, -, -, -, hver, -⟩ := encryptState_inner hS i3 hpt h2
    have hv := C24_mac_verifies _ _ _ _ _ _ _ _ _ _ _ hm
    rw [i1, i2, ← hver] at hv
    exact ⟨k, s0, evs, _, _, hk, h3, hh.sent h2, hv⟩

/-- **C96, for an application that accepts one identity only.** If the application trusts no identity but `k` for the address, then whatever happened before and whatever arrives, every
message accepted under that address is authenticated with `k`. (Serialising stores.) -/
theorem C96_one_identity_partial (E : Env) (n0 : Node) (h0 : ∀ a, n0.st.sessions a = none) (ds : List Deed) (a : Addr) (k : Key32)
    (hk : ∀ ids k', E.trusted ids a k' = true → k' = k) :
    let n := n0.deeds E ds
    (∀ m x st' pos', n.st.decrypt E n.pos a m = (.ok x, st', pos') → m.verifyMac E.C E.S m.struct.version (some k) (some E.identity.pub) x.2.macKey = .ok ()) ∧
    (∀ m x st' pos', n.st.decryptPreKey E n.pos a m = (.ok x, st', pos') →
      m.message.verifyMac E.C E.S m.message.struct.version (some k) (some E.identity.pub) x.2.macKey = .ok ()) := by
  intro n
  have only : ∀ {ds k' s0}, Acquired E n0 ds a k' s0 → k' = k := by
    rintro ds k' s0 ⟨_, _, _, _, _, _, hs⟩
    cases hs with
    | bundle ht => exact hk _ _ ht
    | message ht => exact hk _ _ ht
  obtain ⟨h1, h2, -⟩ := C96_only_accepted_identities_partial E n0 h0 ds a
  refine ⟨fun m x st' pos' h => ?_, fun m x st' pos' h => ?_⟩
  · obtain ⟨k', s0, evs, r', ha, -, -, hv⟩ := h1 m x st' pos' h
    rw [← only ha]; exact hv
  · obtain ⟨k', s0, evs, r', ha, -, -, hv⟩ := h2 m x st' pos' h
    rw [← only ha]; exact hv

/-- **C96 is false for a store that hands out the live object** (tests/stores.go).  There a record stays "fresh" for ever, so `ProcessBundle` writes the new identity over the current state and leaves the
receiving chains of the old session in it.  Hence whoever shared the old session - with another identity key, which the application may have given up - can from then on send messages
that are accepted as authenticated with the new identity: he knows the chain, and both identity keys are public.  (For every session, every chain of it while there are fewer than five, and
every bundle.) -/
theorem C96_live_false (E : Env) (hA : E.C.AesLaw) (lv lv' : LiveStore) (pos pos' : Nat) (a : Addr) (r : Rec) (hr : lv.sessions a = some r) (hf : r.fresh = true)
    (rk : Key32) (c : Chain) (hc : r.state.receiverChain rk = some c) (hroom : r.state.receiverChains.length < 5)
    (b : Bundle) (hb : lv.processBundle E pos a b = (.ok (), lv', pos')) (prev : UInt32) (pt body : Bytes)
    (hbody : encryptBody E.C (c.chainKey.msgKeys E.C) pt = .ok body) (m : SignalMsg)
    (hm : newSignalMessage E.C E.S currentVersion c.chainKey.index prev (c.chainKey.msgKeys E.C).macKey rk body (some b.identityKey) (some E.identity.pub) = .ok m) :
    ∃ lv'', lv'.decrypt E pos' a m = (.ok (pt, c.chainKey.msgKeys E.C), lv'', pos') ∧ lv''.identities a = some b.identityKey := by
  have hl : lv.load a = r := by simp [LiveStore.load, hr]
  unfold LiveStore.processBundle at hb
  cases hchk : checkBundle E lv.identities a b with
  | err e => simp [hchk] at hb
  | panic => simp [hchk] at hb
  | ok spk =>
    simp only [hchk, hl, Prod.mk.injEq] at hb
    obtain ⟨h1, h2, h3⟩ := hb
    obtain ⟨base, bp, ratchet, derived, sending, -, -, -, -, -, h6, h7, h8⟩ := buildFromBundle_ok (r' := (buildFromBundle E pos a r b spk).2.1)
      (pos' := (buildFromBundle E pos a r b spk).2.2.1) (effs := (buildFromBundle E pos a r b spk).2.2.2) (Prod.ext h1 rfl)
    rw [hf] at h6
    simp only [if_true] at h6
    generalize hr' : (buildFromBundle E pos a r b spk).2.1 = r' at h2 h6 h8
    have hcur : r'.cur = r.cur := by rw [h6]; rfl
    have hst : r'.heap r'.cur = initSenderState E r.state b spk base ratchet derived sending := by rw [hcur, h6]; simp [Rec.set]
    generalize hs : initSenderState E r.state b spk base ratchet derived sending = s at hst
    have s1 : s.senderChain ≠ none := by rw [← hs]; simp [initSenderState, SState.setSenderChain]
    have s2 : s.version = currentVersion := by rw [← hs]; simp [initSenderState, SState.setSenderChain, SState.addReceiverChain]
    have s3 : s.remoteIdentity = some b.identityKey := by rw [← hs]; simp [initSenderState, SState.setSenderChain, SState.addReceiverChain]
    have s4 : s.localIdentity = some E.identity.pub := by rw [← hs]; simp [initSenderState, SState.setSenderChain, SState.addReceiverChain]
    have s5 : s.receiverChain rk = some c := by
      have e : s.receiverChains = r.state.receiverChains ++ [⟨⟨spk, none⟩, derived.chain, []⟩] := by
        rw [← hs]
        simp only [initSenderState, SState.setSenderChain, SState.addReceiverChain]
        rw [if_neg (by have : maxReceiverChains = 5 := rfl; simp only [List.length_append, List.length_singleton]; omega)]
      unfold SState.receiverChain at hc ⊢
      rw [e, List.find?_append, hc]
      rfl
    have hlv : lv'.sessions a = some r' := by
      rw [← h2, h8]
      simp [LiveStore.finish, LiveStore.apply, upd]
    obtain ⟨sb, mac, -, -, -, -, e⟩ := newSignalMessage_ok hm
    have hv := C24_mac_verifies _ _ _ _ _ _ _ _ _ _ _ hm
    have m1 : m.struct.version = s.version := by rw [s2, e]
    have m2 : m.senderRatchetKey = rk := by rw [e]
    have m3 : m.struct.counter = c.chainKey.index := by rw [e]
    have m4 : m.struct.cipherText = some body := by rw [e]
    have hrecv : (c.recv E.C m.struct.counter).1 = .ok (c.chainKey.msgKeys E.C) := by
      rw [m3]
      unfold Chain.recv
      rw [if_neg (by simp [UInt32.lt_irrefl]), if_neg (by rw [UInt32.sub_self]; decide), UInt32.sub_self]
      rfl
    have hopen : openWith E s.remoteIdentity s.localIdentity m (c.chainKey.msgKeys E.C) = .ok (pt, c.chainKey.msgKeys E.C) := by
      unfold openWith
      rw [s3, s4, m1, s2, hv]
      simp only [Res.bind_ok, m4, Option.getD_some]
      rw [decryptBody_encryptBody E.C hA c.chainKey pt body hbody]
      rfl
    have hd : ∃ s', decryptWithState E (E.rng pos') s m = (.ok (pt, c.chainKey.msgKeys E.C), s', false) ∧ s'.remoteIdentity = some b.identityKey := by
      have hk := decryptWithState_kept E (E.rng pos') s m
      rw [decryptWithState_existing E (E.rng pos') s m c s1 m1 (by rw [m2]; exact s5)] at hk ⊢
      generalize hg : c.recv E.C m.struct.counter = g at hrecv hk
      obtain ⟨g, c'⟩ := g
      simp only at hrecv
      subst hrecv
      simp only [hopen] at hk ⊢
      exact ⟨_, rfl, by rw [hk.remote, s3]⟩
    obtain ⟨s', hd, hid⟩ := hd
    refine ⟨_, by
      unfold LiveStore.decrypt decryptRec decryptWithRecord
      simp only [hlv, hst, hd]
      rfl, ?_⟩
    simp only [LiveStore.finish, LiveStore.apply, List.foldl_cons, List.foldl_nil, upd, if_true]
    rw [show (r'.set r'.cur s').state = s' by simp [Rec.state, Rec.set], hid]

/-! ### Concrete cases -/

namespace Toy
set_option maxRecDepth 100000

/-- Bob, who trusts only Alice's identity key. -/
def strictBob : Env := { bobEnv with trusted := fun _ _ k => decide (k = aliceEnv.identity.pub) }

/-- Bob receives Alice's first message and dies after storing the session (the one-time prekey is not removed); he answers; a message with another identity key arrives and is
refused; he removes some prekey. -/
def bobLives : List Deed :=
  [⟨.call (.decryptPreKey alice msg1), some 2⟩, ⟨.call (.encrypt alice [9, 9]), none⟩, ⟨.call (.decryptPreKey alice { msg1 with identityKey := bobEnv.identity.pub }), none⟩,
    ⟨.removePreKey 77, none⟩]

/-- He has no session at first; then Alice's next message and Alice's second prekey message are accepted, and he can answer. -/
example : (∀ a, bobStore.sessions a = none) ∧
    (((Node.mk bobStore 0).deeds strictBob bobLives).st.decrypt strictBob ((Node.mk bobStore 0).deeds strictBob bobLives).pos alice msg3).1.isOk = true ∧
    (((Node.mk bobStore 0).deeds strictBob bobLives).st.decryptPreKey strictBob ((Node.mk bobStore 0).deeds strictBob bobLives).pos alice msg2).1.isOk = true ∧
    (((Node.mk bobStore 0).deeds strictBob bobLives).st.encrypt strictBob alice [1]).1.isOk = true :=
  ⟨fun _ => rfl, by decide +kernel, by decide +kernel, by decide +kernel⟩

example : ∀ ids k', strictBob.trusted ids alice k' = true → k' = aliceEnv.identity.pub := fun _ _ h => of_decide_eq_true h

/-- Under an address without a session nothing is accepted by `Decrypt`; after `deleteSession` neither. -/
example : (((Node.mk bobStore 0).deeds strictBob (bobLives ++ [⟨.deleteSession alice, none⟩])).st.decrypt strictBob 5 alice msg3).1.isOk = false := by decide +kernel

/-- Bob has a new identity key (33); Alice, with the in-memory store, saves it as the trusted one and processes its bundle. -/
def newBundle : Bundle :=
  { bundle with signedPreKeyPublic := some (idPair 41).pub, signature := C.sign (idPair 33).priv (serPub (idPair 41).pub) sig0, identityKey := (idPair 33).pub, preKeyPublic := none, preKeyId := none }
def liveNew := { liveA1 with identities := upd liveA1.identities bob (some (idPair 33).pub) }.processBundle aliceEnv 2 bob newBundle

/-- A message made from a chain of the old session (with identity 22), naming the new identity (33). -/
def fromOld : Res SignalMsg :=
  match (liveA1.load bob).state.receiverChains with
  | c :: _ => (encryptBody C (c.chainKey.msgKeys C) [66]).bind fun body =>
      newSignalMessage C aliceEnv.S currentVersion c.chainKey.index 0 (c.chainKey.msgKeys C).macKey c.pair.pub body (some (idPair 33).pub) (some aliceEnv.identity.pub)
  | [] => .panic

example : (liveA1.load bob).fresh = true ∧ (liveA1.load bob).state.receiverChains.length = 1 ∧ (liveA1.load bob).state.remoteIdentity = some (idPair 22).pub ∧
    liveNew.1 = .ok () ∧ (∃ m, fromOld = .ok m ∧ (liveNew.2.1.decrypt aliceEnv liveNew.2.2 bob m).1.map (·.1) = .ok [66]) ∧
    (idPair 33).pub ≠ (idPair 22).pub := by
  refine ⟨by decide +kernel, by decide +kernel, by decide +kernel, by decide +kernel,
    ⟨match fromOld with | .ok m => m | _ => dummyMsg.message, by decide +kernel, by decide +kernel⟩, by decide +kernel⟩

end Toy

end Verif
