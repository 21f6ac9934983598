import Verif.Props.Serialise
import Verif.Props.Auth
/-
Effects of the API calls on the stores: C09, C11, C12, C13, C14, C15, C42, C50.
-/
set_option linter.unusedSimpArgs false
namespace Verif

/-! ### Effects of the calls -/

theorem decryptRec_ok {E : Env} {pos : Nat} {a : Addr} {r r' : Rec} {m : SignalMsg} {x : Bytes × MsgKeys} {pos' : Nat} {effs : List Effect}
    (h : decryptRec E pos a r m = (.ok x, r', pos', effs)) :
    decryptWithRecord E pos r m = (.ok x, r', pos') ∧
      effs = [.saveIdentity a r'.state.remoteIdentity, .storeSession a r'] := by
  unfold decryptRec at h
  cases hd : decryptWithRecord E pos r m with
  | mk res rp =>
    obtain ⟨r1, p1⟩ := rp
    rw [hd] at h
    cases res <;> simp at h
    obtain ⟨rfl, rfl, rfl, rfl⟩ := h
    exact ⟨rfl, rfl⟩

theorem decryptRec_fail {E : Env} {pos : Nat} {a : Addr} {r r' : Rec} {m : SignalMsg} {res : Res (Bytes × MsgKeys)} {pos' : Nat}
    {effs : List Effect} (h : decryptRec E pos a r m = (res, r', pos', effs)) (hr : res.isOk = false) :
    decryptWithRecord E pos r m = (res, r', pos') ∧ effs = [] := by
  unfold decryptRec at h
  cases hd : decryptWithRecord E pos r m with
  | mk res1 rp =>
    obtain ⟨r1, p1⟩ := rp
    rw [hd] at h
    cases res1 <;> simp at h <;> obtain ⟨rfl, rfl, rfl, rfl⟩ := h
    · simp [Res.isOk] at hr
    · exact ⟨rfl, rfl⟩
    · exact ⟨rfl, rfl⟩

/-- All effects of the calls for address `a` concern `a` (or a prekey). -/
def Effect.For (a : Addr) : Effect → Prop
  | .saveIdentity b _ => b = a
  | .storeSession b _ => b = a
  | .removePreKey _ => True

theorem decryptRec_for (E : Env) (pos : Nat) (a : Addr) (r : Rec) (m : SignalMsg) : ∀ e ∈ (decryptRec E pos a r m).2.2.2, e.For a := by
  unfold decryptRec
  split <;> simp [Effect.For]

theorem encryptRec_for (E : Env) (a : Addr) (r : Rec) (pt : Bytes) : ∀ e ∈ (encryptRec E a r pt).2.2, e.For a := by
  unfold encryptRec
  split <;> simp [Effect.For]

theorem process_for (E : Env) (ids : Addr → Option Key32) (pk spk : UInt32 → Option IdKeyPair) (a : Addr) (r : Rec) (m : PreKeyMsg) :
    ∀ e ∈ (process E ids pk spk a r m).2.2, e = .saveIdentity a (some m.identityKey) := by
  unfold process
  split
  · simp
  · split <;> simp

theorem decryptPreKeyRec_for (E : Env) (ids : Addr → Option Key32) (pk spk : UInt32 → Option IdKeyPair) (pos : Nat) (a : Addr) (r : Rec)
    (m : PreKeyMsg) : ∀ e ∈ (decryptPreKeyRec E ids pk spk pos a r m).2.2.2, e.For a := by
  have hp := process_for E ids pk spk a r m
  unfold decryptPreKeyRec
  cases hpr : process E ids pk spk a r m with
  | mk res x =>
    obtain ⟨r1, eff⟩ := x
    rw [hpr] at hp
    have hp' : ∀ e ∈ eff, e.For a := fun e he => by rw [hp e he]; rfl
    cases res with
    | err e => exact hp'
    | panic => exact hp'
    | ok id =>
      simp only
      cases hd : decryptWithRecord E pos r1 m.message with
      | mk res2 y =>
        obtain ⟨r2, pos'⟩ := y
        cases res2 with
        | err e => exact hp'
        | panic => exact hp'
        | ok x =>
          simp only
          cases id with
          | none =>
            intro e he
            rcases List.mem_append.1 he with he | he
            · exact hp' e he
            · simp at he; subst he; rfl
          | some o =>
            simp only
            intro e he
            split at he
            · rcases List.mem_append.1 he with he | he
              · exact hp' e he
              · simp at he; subst he; rfl
            · rcases List.mem_append.1 he with he | he
              · rcases List.mem_append.1 he with he | he
                · exact hp' e he
                · simp at he; subst he; rfl
              · simp at he; subst he; trivial

theorem buildFromBundle_effects (E : Env) (pos : Nat) (a : Addr) (r : Rec) (b : Bundle) (spk : Key32) :
    ∀ e ∈ (buildFromBundle E pos a r b spk).2.2.2, e.For a := by
  unfold buildFromBundle
  split
  · simp
  · simp
  · simp only
    split
    · simp
    · split
      · simp
      · simp
      · split
        · simp
        · simp
        · split <;> simp [Effect.For]

theorem applyAll_frame (st : Store) (a b : Addr) (hb : b ≠ a) (effs : List Effect) (h : ∀ e ∈ effs, e.For a) :
    (st.applyAll effs).1.sessions b = st.sessions b ∧ (st.applyAll effs).1.identities b = st.identities b := by
  induction effs generalizing st with
  | nil => exact ⟨rfl, rfl⟩
  | cons e effs ih =>
    unfold Store.applyAll
    cases ha : st.apply e with
    | none => exact ⟨rfl, rfl⟩
    | some st1 =>
      simp only
      have h1 : st1.sessions b = st.sessions b ∧ st1.identities b = st.identities b := by
        have he := h e List.mem_cons_self
        cases e with
        | saveIdentity c k =>
          simp only [Store.apply, Option.some.injEq] at ha
          subst ha
          have he : c = a := he
          subst he
          exact ⟨rfl, by simp [upd, hb]⟩
        | removePreKey id =>
          simp only [Store.apply, Option.some.injEq] at ha
          subst ha
          exact ⟨rfl, rfl⟩
        | storeSession c r =>
          have he : c = a := he
          subst he
          simp only [Store.apply] at ha
          cases hs : r.toStruct with
          | err e => simp [hs] at ha
          | panic => simp [hs] at ha
          | ok s =>
            simp only [hs, Option.some.injEq] at ha
            subst ha
            exact ⟨by simp [upd, hb], rfl⟩
      have h2 := ih st1 (fun e he => h e (List.mem_cons_of_mem _ he))
      exact ⟨h2.1.trans h1.1, h2.2.trans h1.2⟩

theorem finish_snd {α : Type} (st : Store) (res : Res α) (effs : List Effect) : (finish st res effs).2 = (st.applyAll effs).1 := by
  unfold finish
  cases h : st.applyAll effs with
  | mk s b => cases b <;> rfl

theorem finish_fst {α : Type} (st : Store) (res : Res α) (effs : List Effect) :
    (finish st res effs).1 = if (st.applyAll effs).2 then res else .panic := by
  unfold finish
  cases h : st.applyAll effs with
  | mk s b => cases b <;> rfl

theorem live_frame (st : LiveStore) (a b : Addr) (hb : b ≠ a) (r : Rec) (effs : List Effect) (h : ∀ e ∈ effs, e.For a) :
    (st.finish a r effs).sessions b = st.sessions b ∧ (st.finish a r effs).identities b = st.identities b := by
  unfold LiveStore.finish
  have : ∀ st : LiveStore, (effs.foldl LiveStore.apply st).sessions b = st.sessions b ∧
      (effs.foldl LiveStore.apply st).identities b = st.identities b := by
    induction effs with
    | nil => intro st; exact ⟨rfl, rfl⟩
    | cons e effs ih =>
      intro st
      have h2 := ih (fun e he => h e (List.mem_cons_of_mem _ he)) (LiveStore.apply st e)
      have he := h e List.mem_cons_self
      have h1 : (LiveStore.apply st e).sessions b = st.sessions b ∧ (LiveStore.apply st e).identities b = st.identities b := by
        cases e with
        | saveIdentity c k =>
          have he : c = a := he
          subst he
          exact ⟨rfl, by simp [LiveStore.apply, upd, hb]⟩
        | storeSession c r =>
          have he : c = a := he
          subst he
          exact ⟨by simp [LiveStore.apply, upd, hb], rfl⟩
        | removePreKey id => exact ⟨rfl, rfl⟩
      exact ⟨h2.1.trans h1.1, h2.2.trans h1.2⟩
  have h3 := this { st with sessions := upd st.sessions a (some r) }
  refine ⟨h3.1.trans ?_, h3.2⟩
  simp [upd, hb]

/-! ### C42 -/

/-- **C42 (serialising store).** No call made for address `a` changes the session or the saved identity of
any other address, whatever its outcome (also when it panics half-way). -/
theorem C42_isolation (E : Env) (st : Store) (pos : Nat) (a b : Addr) (hb : b ≠ a) :
    (∀ pt, (st.encrypt E a pt).2.sessions b = st.sessions b ∧ (st.encrypt E a pt).2.identities b = st.identities b) ∧
    (∀ m, (st.decrypt E pos a m).2.1.sessions b = st.sessions b ∧ (st.decrypt E pos a m).2.1.identities b = st.identities b) ∧
    (∀ m, (st.decryptPreKey E pos a m).2.1.sessions b = st.sessions b ∧
      (st.decryptPreKey E pos a m).2.1.identities b = st.identities b) ∧
    (∀ bn, (st.processBundle E pos a bn).2.1.sessions b = st.sessions b ∧
      (st.processBundle E pos a bn).2.1.identities b = st.identities b) := by
  refine ⟨fun pt => ?_, fun m => ?_, fun m => ?_, fun bn => ?_⟩
  · simp only [Store.encrypt, Store.encryptTrace, finish_snd]
    apply applyAll_frame st a b hb
    split
    · exact encryptRec_for E a _ pt
    · simp
    · simp
  · simp only [Store.decrypt, Store.decryptTrace, finish_snd]
    apply applyAll_frame st a b hb
    split
    · simp
    · split
      · exact decryptRec_for E pos a _ m
      · simp
      · simp
  · simp only [Store.decryptPreKey, Store.decryptPreKeyTrace, finish_snd]
    apply applyAll_frame st a b hb
    split
    · exact decryptPreKeyRec_for E _ _ _ pos a _ m
    · simp
    · simp
  · simp only [Store.processBundle, Store.processBundleTrace, finish_snd]
    apply applyAll_frame st a b hb
    split
    · simp
    · simp
    · split
      · exact buildFromBundle_effects E pos a _ bn _
      · simp
      · simp

/-- **C42 (live store).** -/
theorem C42_isolation_live (E : Env) (st : LiveStore) (pos : Nat) (a b : Addr) (hb : b ≠ a) :
    (∀ pt, (st.encrypt E a pt).2.sessions b = st.sessions b ∧ (st.encrypt E a pt).2.identities b = st.identities b) ∧
    (∀ m, (st.decrypt E pos a m).2.1.sessions b = st.sessions b ∧ (st.decrypt E pos a m).2.1.identities b = st.identities b) ∧
    (∀ m, (st.decryptPreKey E pos a m).2.1.sessions b = st.sessions b ∧
      (st.decryptPreKey E pos a m).2.1.identities b = st.identities b) ∧
    (∀ bn, (st.processBundle E pos a bn).2.1.sessions b = st.sessions b ∧
      (st.processBundle E pos a bn).2.1.identities b = st.identities b) := by
  refine ⟨fun pt => ?_, fun m => ?_, fun m => ?_, fun bn => ?_⟩
  · exact live_frame st a b hb _ _ (encryptRec_for E a _ pt)
  · unfold LiveStore.decrypt
    split
    · exact ⟨rfl, rfl⟩
    · exact live_frame st a b hb _ _ (decryptRec_for E pos a _ m)
  · exact live_frame st a b hb _ _ (decryptPreKeyRec_for E _ _ _ pos a _ m)
  · unfold LiveStore.processBundle
    split
    · exact ⟨rfl, rfl⟩
    · exact ⟨rfl, rfl⟩
    · exact live_frame st a b hb _ _ (buildFromBundle_effects E pos a _ bn _)

/-- Non-vacuity of C42: Bob has sessions under two addresses; encrypting to one changes that one only. -/
example : (Toy.bob1.encrypt Toy.bobEnv Toy.alice [1]).2.sessions Toy.alice ≠ Toy.bob1.sessions Toy.alice := by decide +kernel

/-! ### C09 -/

/-- **C09 (serialising store, ordinary messages).** If Decrypt returns an error, the stores are as before. -/
theorem C09_decrypt_error_partial (E : Env) (st st' : Store) (pos pos' : Nat) (a : Addr) (m : SignalMsg) (e : Err)
    (h : st.decrypt E pos a m = (.err e, st', pos')) : st' = st := by
  simp only [Store.decrypt, Prod.mk.injEq, finish_snd, finish_fst] at h
  obtain ⟨h1, h2, -⟩ := h
  have he : (st.decryptTrace E pos a m).1 = .err e := by
    split at h1
    · exact h1
    · simp at h1
  have hn : (st.decryptTrace E pos a m).2.2 = [] := by
    unfold Store.decryptTrace at he ⊢
    cases hs : st.sessions a with
    | none => rfl
    | some s0 =>
      cases hl : st.load a with
      | err e => rfl
      | panic => rfl
      | ok r =>
        simp only [hs, hl] at he
        cases hd : decryptRec E pos a r m with
        | mk res y =>
          obtain ⟨r', p', effs⟩ := y
          rw [hd] at he
          simp only at he
          simp only [hd]
          exact (decryptRec_fail hd (by rw [he]; rfl)).2
  rw [hn] at h2
  exact h2.symm

/-- **C09 (serialising store, prekey messages).** If decrypting a prekey message returns an error, all sessions and
prekeys are as before. (The saved identity of the sender may have changed; see C11.) -/
theorem C09_decryptPreKey_error_partial (E : Env) (st st' : Store) (pos pos' : Nat) (a : Addr) (m : PreKeyMsg) (e : Err)
    (h : st.decryptPreKey E pos a m = (.err e, st', pos')) :
    st'.sessions = st.sessions ∧ st'.preKeys = st.preKeys ∧ st'.signedPreKeys = st.signedPreKeys := by
  simp only [Store.decryptPreKey, Prod.mk.injEq, finish_snd, finish_fst] at h
  obtain ⟨h1, h2, -⟩ := h
  have he : (st.decryptPreKeyTrace E pos a m).1 = .err e := by
    split at h1
    · exact h1
    · simp at h1
  have hn : ∀ x ∈ (st.decryptPreKeyTrace E pos a m).2.2, x = .saveIdentity a (some m.identityKey) := by
    unfold Store.decryptPreKeyTrace at he ⊢
    split
    · rename_i r hr
      simp only [hr] at he
      have hp := process_for E st.identities st.preKeys st.signedPreKeys a r m
      unfold decryptPreKeyRec at he ⊢
      cases hpr : process E st.identities st.preKeys st.signedPreKeys a r m with
      | mk res y =>
        obtain ⟨r1, eff⟩ := y
        rw [hpr] at hp he
        cases res with
        | err e => exact hp
        | panic => exact hp
        | ok id =>
          simp only at he ⊢
          cases hd : decryptWithRecord E pos r1 m.message with
          | mk res2 z =>
            obtain ⟨r2, p2⟩ := z
            rw [hd] at he
            cases res2 with
            | err e => exact hp
            | panic => exact hp
            | ok x =>
              simp only at he
              cases id with
              | none => simp at he
              | some o =>
                simp only at he
                split at he <;> simp at he
    · simp
    · simp
  have key : ∀ (effs : List Effect) (st : Store), (∀ x ∈ effs, x = .saveIdentity a (some m.identityKey)) →
      (st.applyAll effs).1.sessions = st.sessions ∧ (st.applyAll effs).1.preKeys = st.preKeys ∧
        (st.applyAll effs).1.signedPreKeys = st.signedPreKeys := by
    intro effs
    induction effs with
    | nil => intro st _; exact ⟨rfl, rfl, rfl⟩
    | cons x effs ih =>
      intro st h
      rw [h x List.mem_cons_self]
      exact ih _ (fun y hy => h y (List.mem_cons_of_mem _ hy))
  rw [← h2]
  exact key _ st hn

/-! ### C11, C13 -/

/-- **C11 (bundles).** A bundle with an untrusted identity is refused and changes nothing, in both kinds of store. -/
theorem C11_bundle (E : Env) (st : Store) (live : LiveStore) (pos : Nat) (a : Addr) (b : Bundle) :
    (E.trusted st.identities a b.identityKey = false → st.processBundle E pos a b = (.err .untrustedIdentity, st, pos)) ∧
    (E.trusted live.identities a b.identityKey = false → live.processBundle E pos a b = (.err .untrustedIdentity, live, pos)) := by
  constructor
  · intro h
    simp [Store.processBundle, Store.processBundleTrace, checkBundle, h, finish, Store.applyAll]
  · intro h
    simp [LiveStore.processBundle, checkBundle, h]

/-- **C11 (prekey messages).** A prekey message with an untrusted identity is refused and changes nothing.  (In the live store,
looking up the session inserts an empty record when there is none; an existing record stays the same object with the
same contents.) -/
theorem C11_preKey_message (E : Env) (st : Store) (live : LiveStore) (pos : Nat) (a : Addr) (m : PreKeyMsg) :
    ((∃ r, st.load a = .ok r) → E.trusted st.identities a m.identityKey = false →
      st.decryptPreKey E pos a m = (.err .untrustedIdentity, st, pos)) ∧
    (E.trusted live.identities a m.identityKey = false →
      live.decryptPreKey E pos a m =
        (.err .untrustedIdentity, { live with sessions := upd live.sessions a (some ((live.sessions a).getD Rec.new)) }, pos)) := by
  constructor
  · rintro ⟨r, hr⟩ h
    simp [Store.decryptPreKey, Store.decryptPreKeyTrace, hr, decryptPreKeyRec, process, h, finish, Store.applyAll]
  · intro h
    simp [LiveStore.decryptPreKey, decryptPreKeyRec, process, h, LiveStore.finish, LiveStore.load]

/-- **C13.** A bundle without signed prekey, or whose signature over the serialised signed prekey does not verify under
the bundle's identity key, is refused and changes nothing, in both kinds of store. -/
theorem C13_signature_required (E : Env) (st : Store) (live : LiveStore) (pos : Nat) (a : Addr) (b : Bundle)
    (h : b.signedPreKeyPublic = none ∨ ∃ spk, b.signedPreKeyPublic = some spk ∧ E.C.verify b.identityKey (serPub spk) b.signature = false) :
    (∃ e, (e = .untrustedIdentity ∨ e = .noSignedPreKey ∨ e = .invalidSignature) ∧ st.processBundle E pos a b = (.err e, st, pos)) ∧
    (∃ e, (e = .untrustedIdentity ∨ e = .noSignedPreKey ∨ e = .invalidSignature) ∧ live.processBundle E pos a b = (.err e, live, pos)) := by
  have hc : ∀ ids, ∃ e, (e = .untrustedIdentity ∨ e = .noSignedPreKey ∨ e = .invalidSignature) ∧ checkBundle E ids a b = .err e := by
    intro ids
    unfold checkBundle
    split
    · exact ⟨_, .inl rfl, rfl⟩
    · rcases h with h | ⟨spk, h, hv⟩
      · rw [h]; exact ⟨_, .inr (.inl rfl), rfl⟩
      · rw [h]; simp only [hv, if_true]; exact ⟨_, .inr (.inr rfl), rfl⟩
  constructor
  · obtain ⟨e, he, hce⟩ := hc st.identities
    refine ⟨e, he, ?_⟩
    simp [Store.processBundle, Store.processBundleTrace, hce, finish, Store.applyAll]
  · obtain ⟨e, he, hce⟩ := hc live.identities
    refine ⟨e, he, ?_⟩
    simp [LiveStore.processBundle, hce]

/-- And conversely: a session created from a bundle had a trusted identity and a verified signed prekey. -/
theorem C13_session_implies_verified (E : Env) (st st' : Store) (pos pos' : Nat) (a : Addr) (b : Bundle)
    (h : st.processBundle E pos a b = (.ok (), st', pos')) :
    E.trusted st.identities a b.identityKey = true ∧
    ∃ spk, b.signedPreKeyPublic = some spk ∧ E.C.verify b.identityKey (serPub spk) b.signature = true := by
  simp only [Store.processBundle, Prod.mk.injEq, finish_fst] at h
  have hc : ∃ spk, checkBundle E st.identities a b = .ok spk := by
    have h1 := h.1
    unfold Store.processBundleTrace at h1
    cases hc : checkBundle E st.identities a b with
    | ok spk => exact ⟨spk, rfl⟩
    | err e => simp only [hc] at h1; split at h1 <;> simp at h1
    | panic => simp only [hc] at h1; split at h1 <;> simp at h1
  obtain ⟨spk, hc⟩ := hc
  unfold checkBundle at hc
  split at hc
  · simp at hc
  · rename_i ht
    refine ⟨by simpa using ht, ?_⟩
    cases hs : b.signedPreKeyPublic with
    | none => simp [hs] at hc
    | some k =>
      simp only [hs] at hc
      split at hc
      · simp at hc
      · rename_i hv
        exact ⟨k, rfl, by simpa using hv⟩

section
open Toy
set_option maxRecDepth 100000
/-- Non-vacuity of C11/C13: a bundle that is accepted, and its variations that are not. -/
example : (emptyStore.processBundle aliceEnv 0 bob bundle).1 = .ok () := by decide +kernel
example : aliceEnv.trusted ({ emptyStore with identities := fun _ => some (key 9) } : Store).identities bob bundle.identityKey = false := by
  decide +kernel
example : bobEnv.trusted ({ bobStore with identities := fun _ => some (key 9) } : Store).identities alice msg1.identityKey = false ∧
    ∃ r, ({ bobStore with identities := fun _ => some (key 9) } : Store).load alice = .ok r := ⟨by decide +kernel, _, rfl⟩
example : aliceEnv.C.verify { bundle with signature := sig0 }.identityKey (serPub signedPre.pub) sig0 = false := by decide +kernel
end

/-! ### C12 -/

/-- **C12 is false.** Encrypt and Decrypt give the same results and effects under every trust policy. -/
theorem C12_trust_ignored_false (E : Env) (t : (Addr → Option Key32) → Addr → Key32 → Bool) (st : Store) (pos : Nat) (a : Addr) :
    (∀ pt, st.encrypt { E with trusted := t } a pt = st.encrypt E a pt) ∧
    (∀ m, st.decrypt { E with trusted := t } pos a m = st.decrypt E pos a m) := by
  have hs : ∀ d s m, decryptWithState { E with trusted := t } d s m = decryptWithState E d s m := fun _ _ _ => rfl
  have hp : ∀ m l i r pos, tryPrevious { E with trusted := t } m l i r pos = tryPrevious E m l i r pos := by
    intro m l
    induction l with
    | nil => intros; rfl
    | cons a l ih =>
      intro i r pos
      simp only [tryPrevious, hs]
      split
      · exact ih _ _ _
      · rfl
      · rfl
  have hr : ∀ pos r m, decryptWithRecord { E with trusted := t } pos r m = decryptWithRecord E pos r m := by
    intro pos r m
    simp only [decryptWithRecord, hs, hp]
  constructor
  · intro pt; rfl
  · intro m
    simp only [Store.decrypt, Store.decryptTrace, decryptRec, hr]

set_option maxRecDepth 100000 in
/-- **C12 is false**, concretely: the store no longer trusts the session's identity (it has saved another key under
a trust-on-first-use policy), yet Encrypt succeeds and overwrites the saved key. -/
theorem C12_overwrites_false : ∃ (E : Env) (st : Store) (a : Addr) (pt : Bytes) (k k' : Key32),
    st.identities a = some k' ∧ (Toy.stateOf st a).remoteIdentity = some k ∧ E.trusted st.identities a k = false ∧
    (st.encrypt E a pt).1.isOk = true ∧ (st.encrypt E a pt).2.identities a = some k :=
  ⟨Toy.aliceEnv, { Toy.alice1 with identities := fun _ => some (Toy.key 9) }, Toy.bob, [1], Toy.bundle.identityKey, Toy.key 9,
    rfl, by decide +kernel, by decide +kernel, by decide +kernel, by decide +kernel⟩

/-! ### C50 -/

/-- **C50 (ordinary messages).** After a successful Decrypt, the identity saved for the sender's address is the remote
identity of the state that decrypted the message, which is one of the states of the session as it was loaded
and the current state of the session stored. -/
theorem C50_attribution_partial (E : Env) (st st' : Store) (pos pos' : Nat) (a : Addr) (m : SignalMsg) (x : Bytes × MsgKeys)
    (h : st.decrypt E pos a m = (.ok x, st', pos')) :
    ∃ r r' s, st.load a = .ok r ∧ s ∈ r.state :: r.prevStates ∧ decryptWithRecord E pos r m = (.ok x, r', pos') ∧
      st'.identities a = s.remoteIdentity ∧ r'.state.remoteIdentity = s.remoteIdentity ∧
      ∃ str, r'.toStruct = .ok str ∧ st'.sessions a = some str := by
  simp only [Store.decrypt, Prod.mk.injEq, finish_snd, finish_fst] at h
  obtain ⟨h1, h2, h3⟩ := h
  have hb : (st.applyAll (st.decryptTrace E pos a m).2.2).2 = true := by
    apply Decidable.by_contra
    intro hne
    simp [hne] at h1
  rw [hb] at h1
  simp only [if_true] at h1
  unfold Store.decryptTrace at h1 h2 h3 hb
  cases hs : st.sessions a with
  | none => simp [hs] at h1
  | some s0 =>
    simp only [hs] at h1 h2 h3 hb
    cases hl : st.load a with
    | err e => simp [hl] at h1
    | panic => simp [hl] at h1
    | ok r =>
      simp only [hl] at h1 h2 h3 hb
      cases hd : decryptRec E pos a r m with
      | mk res y =>
        obtain ⟨r', p', effs⟩ := y
        rw [hd] at h1 h2 h3 hb
        simp only at h1 h2 h3 hb
        subst h1 h3
        obtain ⟨hrec, rfl⟩ := decryptRec_ok hd
        obtain ⟨ad, s, d, s', b, ha, hk, hds, hs', -, -⟩ := decryptWithRecord_ok hrec
        have hk' := decryptWithState_kept E d s m
        rw [hds] at hk'
        simp only at hk'
        have hst : ∃ str, r'.toStruct = .ok str := by
          simp only [Store.applyAll, Store.apply] at hb
          cases ht : r'.toStruct with
          | ok str => exact ⟨str, rfl⟩
          | err e => simp [ht] at hb
          | panic => simp [ht] at hb
        obtain ⟨str, hstr⟩ := hst
        have hst' : st' = { st with identities := upd st.identities a r'.state.remoteIdentity, sessions := upd st.sessions a (some str) } := by
          rw [← h2]
          simp [Store.applyAll, Store.apply, hstr]
        refine ⟨r, r', r.heap ad, rfl, ?_, hrec, ?_, ?_, str, hstr, ?_⟩
        · rcases ha with rfl | ha
          · exact List.mem_cons_self
          · exact List.mem_cons_of_mem _ (List.mem_map_of_mem ha)
        · rw [hst']; simp [upd, hs', hk'.remote, hk.remote]
        · rw [hs', hk'.remote, hk.remote]
        · rw [hst']; simp [upd]

set_option maxRecDepth 100000 in
/-- **C50 is false for prekey messages.** The identity key inside a prekey message is not authenticated once the session
exists: a copy of a genuine, not yet delivered prekey message with the identity key replaced is decrypted and the
replaced key is saved (here by an application that trusts every identity, as tests/stores.go does). -/
theorem C50_preKey_false : ∃ (E : Env) (st : Store) (pos : Nat) (a : Addr) (m : PreKeyMsg) (k : Key32),
    (st.decryptPreKey E pos a { m with identityKey := k }).1.isOk = true ∧
    (st.decryptPreKey E pos a { m with identityKey := k }).2.1.identities a = some k ∧
    (Toy.stateOf (st.decryptPreKey E pos a { m with identityKey := k }).2.1 a).remoteIdentity ≠ some k :=
  ⟨{ Toy.bobEnv with trusted := fun _ _ _ => true }, Toy.bob1, 1, Toy.alice, Toy.msg2, Toy.key 66,
    by decide +kernel, by decide +kernel, by decide +kernel⟩

end Verif
