import Verif.Props.Stores
/-
C14, C15, C16: decrypting prekey messages.
-/
set_option linter.unusedSimpArgs false
namespace Verif

/-- The record already contains a state established by this message's base key and version. -/
def Knows (r : Rec) (m : PreKeyMsg) : Prop :=
  ∃ s ∈ r.state :: r.prevStates, s.version = m.struct.version ∧ s.senderBaseKey = some m.baseKey

theorem hasSessionState_iff (r : Rec) (m : PreKeyMsg) :
    r.hasSessionState m.struct.version (serPub m.baseKey) = true ↔ Knows r m := by
  have hm : ∀ s : SState, (s.version == m.struct.version && serPub m.baseKey == (s.senderBaseKey.map serPub).getD []) = true ↔
      s.version = m.struct.version ∧ s.senderBaseKey = some m.baseKey := by
    intro s
    cases hb : s.senderBaseKey with
    | none => simp [serPub]
    | some k =>
      simp only [Option.map_some, Option.getD_some, Bool.and_eq_true, beq_iff_eq, serPub_eq_iff, Option.some.injEq]
      constructor
      · rintro ⟨h1, h2⟩; exact ⟨h1, h2.symm⟩
      · rintro ⟨h1, h2⟩; exact ⟨h1, h2.symm⟩
  unfold Rec.hasSessionState Knows
  simp only [Bool.or_eq_true, List.any_eq_true, List.mem_cons, exists_eq_or_imp]
  rw [hm]
  constructor
  · rintro (h | ⟨s, hs, h⟩)
    · exact .inl h
    · exact .inr ⟨s, hs, (hm s).1 h⟩
  · rintro (h | ⟨s, hs, h⟩)
    · exact .inl h
    · exact .inr ⟨s, hs, (hm s).2 h⟩

instance (r : Rec) (m : PreKeyMsg) : Decidable (Knows r m) := decidable_of_iff _ (hasSessionState_iff r m)

/-- **C15.** If the session already contains, as current or archived, a state established by the message's base key
and version, then (for a trusted identity) decrypting the prekey message is exactly decrypting the inner message with
that session: no new state is created, no prekey is looked up or removed. -/
theorem C15_repeated_preKey_message (E : Env) (ids : Addr → Option Key32) (pk spk : UInt32 → Option IdKeyPair) (pos : Nat) (a : Addr)
    (r : Rec) (m : PreKeyMsg) (hk : Knows r m) (ht : E.trusted ids a m.identityKey = true) :
    process E ids pk spk a r m = (.ok (some OptU32.empty), r, [.saveIdentity a (some m.identityKey)]) ∧
    decryptPreKeyRec E ids pk spk pos a r m =
      (match decryptWithRecord E pos r m.message with
       | (.ok x, r', pos') => (.ok x, r', pos', [.saveIdentity a (some m.identityKey), .storeSession a r'])
       | (.err e, r', pos') => (.err e, r', pos', [.saveIdentity a (some m.identityKey)])
       | (.panic, r', pos') => (.panic, r', pos', [.saveIdentity a (some m.identityKey)])) := by
  have h1 : process E ids pk spk a r m = (.ok (some OptU32.empty), r, [.saveIdentity a (some m.identityKey)]) := by
    unfold process processV3
    rw [if_neg (by simp [ht]), if_pos ((hasSessionState_iff r m).2 hk)]
  refine ⟨h1, ?_⟩
  unfold decryptPreKeyRec
  rw [h1]
  simp only
  cases hd : decryptWithRecord E pos r m.message with
  | mk res y =>
    obtain ⟨r', p'⟩ := y
    cases res with
    | err e => rfl
    | panic => rfl
    | ok x => simp [OptU32.empty]

/-- The result of processing a prekey message for a session that does not know its base key. -/
theorem process_new_ok {E : Env} {ids : Addr → Option Key32} {pk spk : UInt32 → Option IdKeyPair} {a : Addr} {r r' : Rec} {m : PreKeyMsg}
    {id : Option OptU32} {effs : List Effect} (hk : ¬ Knows r m) (h : process E ids pk spk a r m = (.ok id, r', effs)) :
    effs = [.saveIdentity a (some m.identityKey)] ∧ E.trusted ids a m.identityKey = true ∧
    (∃ kp, spk m.struct.signedPreKeyId = some kp) ∧
    ((m.struct.preKeyId = none ∧ id = none) ∨
     ∃ o kp, m.struct.preKeyId = some o ∧ pk o.value = some kp ∧ id = if o.value = mediumMaxValue then none else some o) := by
  unfold process at h
  split at h
  · simp at h
  · rename_i ht
    have ht : E.trusted ids a m.identityKey = true := by simpa using ht
    unfold processV3 at h
    rw [if_neg (by rw [hasSessionState_iff]; exact hk)] at h
    cases hs : spk m.struct.signedPreKeyId with
    | none => simp [hs] at h
    | some kp =>
      simp only [hs] at h
      cases hp : m.struct.preKeyId with
      | none =>
        simp only [hp] at h
        cases hc : calculateReceiverSession E.C ⟨E.identity, kp.priv, none, m.baseKey, m.identityKey⟩ with
        | err e => simp [hc] at h
        | panic => simp [hc] at h
        | ok keys =>
          simp only [hc, Prod.mk.injEq, Res.ok.injEq] at h
          exact ⟨h.2.2.symm, ht, ⟨kp, rfl⟩, .inl ⟨rfl, h.1.symm⟩⟩
      | some o =>
        simp only [hp] at h
        cases hk2 : pk o.value with
        | none => simp [hk2] at h
        | some kp2 =>
          simp only [hk2] at h
          cases hc : calculateReceiverSession E.C ⟨E.identity, kp.priv, some kp2.priv, m.baseKey, m.identityKey⟩ with
          | err e => simp [hc] at h
          | panic => simp [hc] at h
          | ok keys =>
            simp only [hc, Prod.mk.injEq, Res.ok.injEq] at h
            exact ⟨h.2.2.symm, ht, ⟨kp, rfl⟩, .inr ⟨o, kp2, rfl, hk2, h.1.symm⟩⟩

/-- **C14 (only).** Any prekey removed by a call decrypting a prekey message is the one named in the message; the call succeeded, and
the removal is its last store operation, right after storing the session. -/
theorem C14_removed_only_after_success (E : Env) (st : Store) (pos pos' : Nat) (a : Addr) (m : PreKeyMsg) (res : Res (Bytes × MsgKeys))
    (effs : List Effect) (h : st.decryptPreKeyTrace E pos a m = (res, pos', effs)) (id : UInt32) (hid : Effect.removePreKey id ∈ effs) :
    (∃ o, m.struct.preKeyId = some o ∧ o.value = id ∧ o.isEmpty = false) ∧
    ∃ x r, res = .ok x ∧ effs = [.saveIdentity a (some m.identityKey), .storeSession a r, .removePreKey id] := by
  unfold Store.decryptPreKeyTrace at h
  cases hl : st.load a with
  | err e => simp only [hl, Prod.mk.injEq] at h; rw [← h.2.2] at hid; simp at hid
  | panic => simp only [hl, Prod.mk.injEq] at h; rw [← h.2.2] at hid; simp at hid
  | ok r =>
    simp only [hl, Prod.mk.injEq] at h
    obtain ⟨h1, -, h3⟩ := h
    have hp := process_for E st.identities st.preKeys st.signedPreKeys a r m
    unfold decryptPreKeyRec at h1 h3
    cases hpr : process E st.identities st.preKeys st.signedPreKeys a r m with
    | mk pres y =>
      obtain ⟨r1, eff⟩ := y
      rw [hpr] at hp h1 h3
      have hno : Effect.removePreKey id ∉ eff := fun he => by have := hp _ he; simp at this
      cases pres with
      | err e => simp only at h3; rw [← h3] at hid; exact absurd hid hno
      | panic => simp only at h3; rw [← h3] at hid; exact absurd hid hno
      | ok pid =>
        simp only at h1 h3
        cases hd : decryptWithRecord E pos r1 m.message with
        | mk res2 z =>
          obtain ⟨r2, p2⟩ := z
          rw [hd] at h1 h3
          cases res2 with
          | err e => simp only at h3; rw [← h3] at hid; exact absurd hid hno
          | panic => simp only at h3; rw [← h3] at hid; exact absurd hid hno
          | ok x =>
            simp only at h1 h3
            cases pid with
            | none => simp only at h3; rw [← h3] at hid; simp [hno] at hid
            | some o =>
              simp only at h1 h3
              by_cases hoe : o.isEmpty = true
              · rw [if_pos hoe] at h3; rw [← h3] at hid; simp [hno] at hid
              · rw [if_neg hoe] at h1 h3
                have hoe : o.isEmpty = false := by simpa using hoe
                rw [← h3] at hid
                simp [hno] at hid
                by_cases hk : Knows r m
                · unfold process processV3 at hpr
                  rw [if_pos ((hasSessionState_iff r m).2 hk)] at hpr
                  split at hpr
                  · simp at hpr
                  · simp only [Prod.mk.injEq, Res.ok.injEq, Option.some.injEq] at hpr
                    rw [← hpr.1] at hoe; simp [OptU32.empty] at hoe
                · obtain ⟨e1, -, -, e4⟩ := process_new_ok hk hpr
                  rcases e4 with ⟨-, e4⟩ | ⟨o', kp, e5, -, e6⟩
                  · simp at e4
                  · split at e6
                    · simp at e6
                    · simp only [Option.some.injEq] at e6
                      subst e6
                      refine ⟨⟨o, e5, hid.symm, hoe⟩, x, r2, h1.symm, ?_⟩
                      rw [← h3, e1, hid]
                      rfl

/-- **C14 (if).** When a call establishes a new session from a prekey message naming a one-time prekey (other than
the reserved id 0xFFFFFF) and succeeds, that prekey is gone afterwards, and every other prekey is untouched. -/
theorem C14_removed_on_success (E : Env) (st st' : Store) (pos pos' : Nat) (a : Addr) (m : PreKeyMsg) (x : Bytes × MsgKeys) (r : Rec)
    (o : OptU32) (hl : st.load a = .ok r) (hk : ¬ Knows r m) (ho : m.struct.preKeyId = some o) (hoe : o.isEmpty = false)
    (h : st.decryptPreKey E pos a m = (.ok x, st', pos')) :
    st'.preKeys o.value = none ∧ ∀ i, i ≠ o.value → st'.preKeys i = st.preKeys i := by
  simp only [Store.decryptPreKey, Prod.mk.injEq, finish_snd, finish_fst] at h
  obtain ⟨h1, h2, -⟩ := h
  have hb : (st.applyAll (st.decryptPreKeyTrace E pos a m).2.2).2 = true := by
    apply Decidable.by_contra
    intro hne
    simp [hne] at h1
  rw [hb] at h1
  simp only [if_true] at h1
  have key : ∃ r2, (st.decryptPreKeyTrace E pos a m).2.2 =
      [.saveIdentity a (some m.identityKey), .storeSession a r2, .removePreKey o.value] := by
    unfold Store.decryptPreKeyTrace at h1 ⊢
    simp only [hl] at h1 ⊢
    unfold decryptPreKeyRec at h1 ⊢
    cases hpr : process E st.identities st.preKeys st.signedPreKeys a r m with
    | mk pres y =>
      obtain ⟨r1, eff⟩ := y
      rw [hpr] at h1
      cases pres with
      | err e => simp at h1
      | panic => simp at h1
      | ok pid =>
        obtain ⟨e1, -, -, e4⟩ := process_new_ok hk hpr
        simp only at h1 ⊢
        cases hd : decryptWithRecord E pos r1 m.message with
        | mk res2 z =>
          obtain ⟨r2, p2⟩ := z
          rw [hd] at h1
          cases res2 with
          | err e => simp at h1
          | panic => simp at h1
          | ok x' =>
            simp only at h1 ⊢
            rcases e4 with ⟨e4, -⟩ | ⟨o', kp, e5, -, e6⟩
            · rw [ho] at e4; simp at e4
            · rw [ho] at e5
              simp only [Option.some.injEq] at e5
              subst e5
              split at e6
              · subst e6; simp at h1
              · subst e6
                simp only [hoe, Bool.false_eq_true, if_false]
                exact ⟨r2, by rw [e1]; rfl⟩
  obtain ⟨r2, hr2⟩ := key
  rw [hr2] at h2 hb
  simp only [Store.applyAll, Store.apply] at h2 hb
  cases ht : r2.toStruct with
  | err e => simp [ht] at hb
  | panic => simp [ht] at hb
  | ok s =>
    simp only [ht] at h2
    rw [← h2]
    constructor
    · simp [upd]
    · intro i hi; simp [upd, hi]

/-- **C14 (failure).** A call that returns an error removes no prekey. -/
theorem C14_not_removed_on_error (E : Env) (st st' : Store) (pos pos' : Nat) (a : Addr) (m : PreKeyMsg) (e : Err)
    (h : st.decryptPreKey E pos a m = (.err e, st', pos')) : st'.preKeys = st.preKeys :=
  (C09_decryptPreKey_error_partial E st st' pos pos' a m e h).2.1

/-- **C16 is false.** A prekey message that names no one-time prekey and opens a new session is never decrypted:
* an in-memory message without identifier (nil) makes the call panic, after the session has been stored;
* a message whose identifier is the "empty" value, or (what parsing produces) the present value 0, is refused
  because prekey 0 is not in the store. -/
theorem C16_no_one_time_prekey_false (E : Env) (st : Store) (pos : Nat) (a : Addr) (m : PreKeyMsg) (r : Rec)
    (hl : st.load a = .ok r) (hk : ¬ Knows r m) :
    (m.struct.preKeyId = none → ∀ x, (st.decryptPreKey E pos a m).1 ≠ .ok x) ∧
    (∀ o, m.struct.preKeyId = some o → st.preKeys o.value = none → ∀ x, (st.decryptPreKey E pos a m).1 ≠ .ok x) := by
  have main : (m.struct.preKeyId = none ∨ ∃ o, m.struct.preKeyId = some o ∧ st.preKeys o.value = none) →
      ∀ x, (st.decryptPreKeyTrace E pos a m).1 ≠ .ok x := by
    intro hcase x hx
    unfold Store.decryptPreKeyTrace at hx
    simp only [hl] at hx
    unfold decryptPreKeyRec at hx
    cases hpr : process E st.identities st.preKeys st.signedPreKeys a r m with
    | mk pres y =>
      obtain ⟨r1, eff⟩ := y
      rw [hpr] at hx
      cases pres with
      | err e => simp at hx
      | panic => simp at hx
      | ok pid =>
        obtain ⟨-, -, -, e4⟩ := process_new_ok hk hpr
        rcases hcase with h | ⟨o, h, hpk⟩
        · rcases e4 with ⟨-, rfl⟩ | ⟨o', kp, e5, -⟩
          · simp only at hx
            cases hd : decryptWithRecord E pos r1 m.message with
            | mk res2 z =>
              obtain ⟨r2, p2⟩ := z
              rw [hd] at hx
              cases res2 <;> simp at hx
          · rw [h] at e5; simp at e5
        · rcases e4 with ⟨e4, -⟩ | ⟨o', kp, e5, e6, -⟩
          · rw [h] at e4; simp at e4
          · rw [h] at e5
            simp only [Option.some.injEq] at e5
            subst e5
            rw [hpk] at e6; simp at e6
  have fin : ∀ x, (st.decryptPreKey E pos a m).1 = .ok x → (st.decryptPreKeyTrace E pos a m).1 = .ok x := by
    intro x hx
    simp only [Store.decryptPreKey, finish_fst] at hx
    split at hx
    · exact hx
    · simp at hx
  exact ⟨fun h x hx => main (.inl h) x (fin x hx), fun o ho hp x hx => main (.inr ⟨o, ho, hp⟩) x (fin x hx)⟩

/-- The reserved identifier 0xFFFFFF behaves like a missing one: even with that prekey in the store the call cannot succeed. -/
theorem C16_max_value_false (E : Env) (st : Store) (pos : Nat) (a : Addr) (m : PreKeyMsg) (r : Rec) (o : OptU32)
    (hl : st.load a = .ok r) (hk : ¬ Knows r m) (ho : m.struct.preKeyId = some o) (hv : o.value = mediumMaxValue) :
    ∀ x, (st.decryptPreKey E pos a m).1 ≠ .ok x := by
  intro x hx
  simp only [Store.decryptPreKey, finish_fst] at hx
  split at hx
  · unfold Store.decryptPreKeyTrace at hx
    simp only [hl] at hx
    unfold decryptPreKeyRec at hx
    cases hpr : process E st.identities st.preKeys st.signedPreKeys a r m with
    | mk pres y =>
      obtain ⟨r1, eff⟩ := y
      rw [hpr] at hx
      cases pres with
      | err e => simp at hx
      | panic => simp at hx
      | ok pid =>
        obtain ⟨-, -, -, e4⟩ := process_new_ok hk hpr
        rcases e4 with ⟨e4, -⟩ | ⟨o', kp, e5, -, e6⟩
        · rw [ho] at e4; simp at e4
        · rw [ho] at e5
          simp only [Option.some.injEq] at e5
          subst e5
          rw [if_pos hv] at e6
          subst e6
          simp only at hx
          cases hd : decryptWithRecord E pos r1 m.message with
          | mk res2 z =>
            obtain ⟨r2, p2⟩ := z
            rw [hd] at hx
            cases res2 <;> simp at hx
  · simp at hx

section
open Toy
set_option maxRecDepth 100000
/-- Alice's flow with a bundle that has no one-time prekey (nil identifier, as an application would pass). -/
def bundleNoOtp : Bundle := { bundle with preKeyId := none, preKeyPublic := none }
def aliceN : Store := (emptyStore.processBundle aliceEnv 0 bob bundleNoOtp).2.1
def msgN : PreKeyMsg := asPreKey (aliceN.encrypt aliceEnv bob [104, 105]).1

/-- **C16, concretely.** The in-memory message panics the recipient although its session was built, stored and would decrypt it; and
serialising the message panics the sender. -/
theorem C16_concrete_false :
    (aliceN.encrypt aliceEnv bob [104, 105]).1.isOk = true ∧ msgN.struct.preKeyId = none ∧
    (bobStore.decryptPreKey bobEnv 0 alice msgN).1 = .panic ∧
    ((bobStore.decryptPreKey bobEnv 0 alice msgN).2.1.sessions alice).isSome = true ∧
    pkSer msgN.struct = .panic := by decide +kernel

/-- What does work (**C16, partial**): the session the recipient builds from such an in-memory message does decrypt it;
only the last step of the call fails. -/
theorem C16_inner_partial :
    (decryptWithRecord bobEnv 0 (processV3 bobEnv bobStore.preKeys bobStore.signedPreKeys Rec.new msgN).2 msgN.message).1.map (·.1)
      = .ok [104, 105] := by decide +kernel

/-- Non-vacuity of C14/C15. -/
example : ¬ Knows Rec.new msg1 ∧ bobStore.load alice = .ok Rec.new ∧ (bobStore.decryptPreKey bobEnv 0 alice msg1).1.isOk = true ∧
    msg1.struct.preKeyId = some ⟨9, false⟩ ∧ bobStore.preKeys 9 = some oneTime ∧ bob1.preKeys 9 = none :=
  ⟨by decide +kernel, rfl, by decide +kernel, by decide +kernel, by decide +kernel, by decide +kernel⟩
example : Knows (recOf bob1 alice) msg2 ∧ bobEnv.trusted bob1.identities alice msg2.identityKey = true ∧
    (bob1.decryptPreKey bobEnv 1 alice msg2).1.map (·.1) = .ok [1, 2, 3] := by decide +kernel
end

end Verif
