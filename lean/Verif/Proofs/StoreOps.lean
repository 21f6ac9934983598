import Verif.Props.Sending
/- What the API calls leave in a serialising store. -/
set_option linter.unusedSimpArgs false
namespace Verif

theorem finish_ok {α : Type} {st st' : Store} {res : Res α} {effs : List Effect} {x : α} (h : finish st res effs = (.ok x, st')) :
    res = .ok x ∧ st.applyAll effs = (st', true) := by
  unfold finish at h
  cases h1 : st.applyAll effs with
  | mk s b =>
    rw [h1] at h
    cases b with
    | true => simp only [Prod.mk.injEq] at h; exact ⟨h.1, by rw [h.2]⟩
    | false => simp at h

theorem finish_err {α : Type} {st st' : Store} {res : Res α} {effs : List Effect} {e : Err} (h : finish st res effs = (.err e, st')) :
    res = .err e ∧ st.applyAll effs = (st', true) := by
  unfold finish at h
  cases h1 : st.applyAll effs with
  | mk s b =>
    rw [h1] at h
    cases b with
    | true => simp only [Prod.mk.injEq] at h; exact ⟨h.1, by rw [h.2]⟩
    | false => simp at h

/-- A successful Encrypt. -/
theorem Store.encrypt_ok {E : Env} {st st' : Store} {a : Addr} {pt : Bytes} {cm : CipherMsg} (h : st.encrypt E a pt = (.ok cm, st')) :
    ∃ r s', st.load a = .ok r ∧ encryptState E r.state pt = (.ok cm, s') ∧
      st'.load a = .ok (Rec.ofStates s' (r.set r.cur s').prevStates) ∧ (st'.sessions a).isSome ∧
      st'.preKeys = st.preKeys ∧ st'.signedPreKeys = st.signedPreKeys ∧
      st'.identities = upd st.identities a s'.remoteIdentity := by
  simp only [Store.encrypt] at h
  obtain ⟨h1, h2⟩ := finish_ok h
  unfold Store.encryptTrace at h1 h2
  cases hl : st.load a with
  | err e => simp [hl] at h1
  | panic => simp [hl] at h1
  | ok r =>
    simp only [hl] at h1 h2
    unfold encryptRec at h1 h2
    cases he : encryptState E r.state pt with
    | mk res s' =>
      rw [he] at h1 h2
      cases res with
      | err e => simp at h1
      | panic => simp at h1
      | ok cm' =>
        simp only [Res.ok.injEq] at h1 h2
        subst h1
        simp only [Store.applyAll, Store.apply] at h2
        cases ht : (r.set r.cur s').toStruct with
        | err e => simp [ht] at h2
        | panic => simp [ht] at h2
        | ok str =>
          simp only [ht, Prod.mk.injEq, and_true] at h2
          subst h2
          refine ⟨r, s', rfl, he, ?_, by simp [upd], rfl, rfl, rfl⟩
          rw [Store.load_stored ht (by simp [upd])]
          simp [Rec.state]

/-- A failed Encrypt changes nothing. -/
theorem Store.encrypt_err {E : Env} {st st' : Store} {a : Addr} {pt : Bytes} {e : Err} (h : st.encrypt E a pt = (.err e, st')) : st' = st := by
  simp only [Store.encrypt] at h
  obtain ⟨h1, h2⟩ := finish_err h
  unfold Store.encryptTrace at h1 h2
  cases hl : st.load a with
  | err e => simp only [hl, Store.applyAll, Prod.mk.injEq] at h2; exact h2.1.symm
  | panic => simp [hl] at h1
  | ok r =>
    simp only [hl] at h1 h2
    unfold encryptRec at h1 h2
    cases he : encryptState E r.state pt with
    | mk res s' =>
      rw [he] at h1 h2
      cases res with
      | err e => simp only [Store.applyAll, Prod.mk.injEq] at h2; exact h2.1.symm
      | panic => simp at h1
      | ok cm' => simp at h1

/-- A successful Decrypt. -/
theorem Store.decrypt_ok {E : Env} {st st' : Store} {pos pos' : Nat} {a : Addr} {m : SignalMsg} {x : Bytes × MsgKeys}
    (h : st.decrypt E pos a m = (.ok x, st', pos')) :
    ∃ r r', st.load a = .ok r ∧ (st.sessions a).isSome ∧ decryptWithRecord E pos r m = (.ok x, r', pos') ∧
      st'.load a = .ok (Rec.ofStates r'.state r'.prevStates) ∧ (st'.sessions a).isSome ∧
      st'.preKeys = st.preKeys ∧ st'.signedPreKeys = st.signedPreKeys ∧
      st'.identities = upd st.identities a r'.state.remoteIdentity := by
  simp only [Store.decrypt, Prod.mk.injEq] at h
  obtain ⟨h1, h2, h3⟩ := h
  have hf := finish_ok (st' := st') (x := x) (Prod.ext h1 h2)
  clear h1 h2
  obtain ⟨h1, h2⟩ := hf
  unfold Store.decryptTrace at h1 h2 h3
  cases hs : st.sessions a with
  | none => simp [hs] at h1
  | some s0 =>
    cases hl : st.load a with
    | err e => simp [hs, hl] at h1
    | panic => simp [hs, hl] at h1
    | ok r =>
      simp only [hs, hl] at h1 h2 h3
      unfold decryptRec at h1 h2 h3
      cases hd : decryptWithRecord E pos r m with
      | mk res y =>
        obtain ⟨r', p'⟩ := y
        rw [hd] at h1 h2 h3
        cases res with
        | err e => simp at h1
        | panic => simp at h1
        | ok x' =>
          simp only [Res.ok.injEq] at h1 h2 h3
          subst h1 h3
          simp only [Store.applyAll, Store.apply] at h2
          cases ht : r'.toStruct with
          | err e => simp [ht] at h2
          | panic => simp [ht] at h2
          | ok str =>
            simp only [ht, Prod.mk.injEq, and_true] at h2
            subst h2
            exact ⟨r, r', rfl, by simp, hd, Store.load_stored ht (by simp [upd]), by simp [upd], rfl, rfl, rfl⟩

/-- A successful decryption of a prekey message. -/
theorem Store.decryptPreKey_ok {E : Env} {st st' : Store} {pos pos' : Nat} {a : Addr} {m : PreKeyMsg} {x : Bytes × MsgKeys}
    (h : st.decryptPreKey E pos a m = (.ok x, st', pos')) :
    ∃ r r1 r' id, st.load a = .ok r ∧
      process E st.identities st.preKeys st.signedPreKeys a r m = (.ok (some id), r1, [.saveIdentity a (some m.identityKey)]) ∧
      decryptWithRecord E pos r1 m.message = (.ok x, r', pos') ∧
      st'.load a = .ok (Rec.ofStates r'.state r'.prevStates) ∧ (st'.sessions a).isSome ∧ st'.signedPreKeys = st.signedPreKeys ∧
      st'.preKeys = (if id.isEmpty then st.preKeys else upd st.preKeys id.value none) ∧
      st'.identities = upd st.identities a (some m.identityKey) := by
  simp only [Store.decryptPreKey, Prod.mk.injEq] at h
  obtain ⟨h1, h2, h3⟩ := h
  have hf := finish_ok (st' := st') (x := x) (Prod.ext h1 h2)
  clear h1 h2
  obtain ⟨h1, h2⟩ := hf
  unfold Store.decryptPreKeyTrace at h1 h2 h3
  cases hl : st.load a with
  | err e => simp [hl] at h1
  | panic => simp [hl] at h1
  | ok r =>
    simp only [hl] at h1 h2 h3
    unfold decryptPreKeyRec at h1 h2 h3
    have hp : (process E st.identities st.preKeys st.signedPreKeys a r m).1.isOk = true →
        (process E st.identities st.preKeys st.signedPreKeys a r m).2.2 = [.saveIdentity a (some m.identityKey)] := by
      unfold process
      split
      · simp [Res.isOk]
      · split <;> simp [Res.isOk]
    cases hq : process E st.identities st.preKeys st.signedPreKeys a r m with
    | mk res y =>
      obtain ⟨r1, eff⟩ := y
      rw [hq] at hp
      simp only [hq] at h1 h2 h3
      cases res with
      | err e => simp at h1
      | panic => simp at h1
      | ok id =>
        have heff := hp rfl
        simp only at heff
        subst heff
        simp only at h1 h2 h3
        cases hd : decryptWithRecord E pos r1 m.message with
        | mk res2 z =>
          obtain ⟨r', p'⟩ := z
          simp only [hd] at h1 h2 h3
          cases res2 with
          | err e => simp at h1
          | panic => simp at h1
          | ok x' =>
            cases id with
            | none => simp at h1
            | some o =>
              simp only at h1 h2 h3
              have hx : x' = x ∧ p' = pos' := by
                split at h1 <;> simp_all
              obtain ⟨rfl, rfl⟩ := hx
              cases ht : r'.toStruct with
              | err e => split at h2 <;> simp [Store.applyAll, Store.apply, ht] at h2
              | panic => split at h2 <;> simp [Store.applyAll, Store.apply, ht] at h2
              | ok str =>
                by_cases ho : o.isEmpty
                · simp only [ho, if_true, List.cons_append, List.nil_append, Store.applyAll, Store.apply, ht, Prod.mk.injEq, and_true] at h2
                  subst h2
                  exact ⟨r, r1, r', o, rfl, hq, hd, Store.load_stored ht (by simp [upd]), by simp [upd], rfl, by simp [ho], rfl⟩
                · rw [if_neg ho] at h2
                  simp only [List.cons_append, List.nil_append, Store.applyAll, Store.apply, ht, Prod.mk.injEq, and_true] at h2
                  subst h2
                  exact ⟨r, r1, r', o, rfl, hq, hd, Store.load_stored ht (by simp [upd]), by simp [upd], rfl, by simp [ho], rfl⟩

/-- What a successful session construction from a bundle does to the record. -/
theorem buildFromBundle_ok {E : Env} {pos pos' : Nat} {a : Addr} {r r' : Rec} {b : Bundle} {spk : Key32} {effs : List Effect}
    (h : buildFromBundle E pos a r b spk = (.ok (), r', pos', effs)) :
    ∃ base bp ratchet derived sending, generateKeyPair E.C (E.rng pos) = .ok base ∧ base.priv = some bp ∧
      calculateSenderSession E.C ⟨E.identity, bp, b.identityKey, spk, b.preKeyPublic⟩ = .ok derived ∧
      generateKeyPair E.C (E.rng (pos + 1)) = .ok ratchet ∧ createChain E.C derived.root spk ratchet = .ok sending ∧
      r' = (if r.fresh then r else r.archiveCurrentState).set (if r.fresh then r else r.archiveCurrentState).cur
        (initSenderState E (if r.fresh then r else r.archiveCurrentState).state b spk base ratchet derived sending) ∧
      pos' = pos + 2 ∧ effs = [.storeSession a r', .saveIdentity a (some b.identityKey)] := by
  unfold buildFromBundle at h
  cases hg : generateKeyPair E.C (E.rng pos) with
  | err e => simp [hg] at h
  | panic => simp [hg] at h
  | ok base =>
    simp only [hg] at h
    cases hp : base.priv with
    | none => simp [hp] at h
    | some bp =>
      simp only [hp] at h
      cases hc : calculateSenderSession E.C ⟨E.identity, bp, b.identityKey, spk, b.preKeyPublic⟩ with
      | err e => simp [hc] at h
      | panic => simp [hc] at h
      | ok derived =>
        simp only [hc] at h
        cases hg2 : generateKeyPair E.C (E.rng (pos + 1)) with
        | err e => simp [hg2] at h
        | panic => simp [hg2] at h
        | ok ratchet =>
          simp only [hg2] at h
          cases hcc : createChain E.C derived.root spk ratchet with
          | err e => simp [hcc] at h
          | panic => simp [hcc] at h
          | ok sending =>
            simp only [hcc, Prod.mk.injEq] at h
            obtain ⟨-, rfl, rfl, rfl⟩ := h
            exact ⟨base, bp, ratchet, derived, sending, rfl, hp, hc, rfl, hcc, rfl, rfl, rfl⟩

/-- A successful ProcessBundle. -/
theorem Store.processBundle_ok {E : Env} {st st' : Store} {pos pos' : Nat} {a : Addr} {b : Bundle}
    (h : st.processBundle E pos a b = (.ok (), st', pos')) :
    ∃ r spk r', checkBundle E st.identities a b = .ok spk ∧ st.load a = .ok r ∧
      buildFromBundle E pos a r b spk = (.ok (), r', pos', [.storeSession a r', .saveIdentity a (some b.identityKey)]) ∧
      st'.load a = .ok (Rec.ofStates r'.state r'.prevStates) ∧ (st'.sessions a).isSome ∧
      st'.preKeys = st.preKeys ∧ st'.signedPreKeys = st.signedPreKeys ∧
      st'.identities = upd st.identities a (some b.identityKey) := by
  simp only [Store.processBundle, Prod.mk.injEq] at h
  obtain ⟨h1, h2, h3⟩ := h
  have hf := finish_ok (st' := st') (x := ()) (Prod.ext h1 h2)
  clear h1 h2
  obtain ⟨h1, h2⟩ := hf
  unfold Store.processBundleTrace at h1 h2 h3
  cases hc : checkBundle E st.identities a b with
  | err e => simp [hc] at h1
  | panic => simp [hc] at h1
  | ok spk =>
    cases hl : st.load a with
    | err e => simp [hc, hl] at h1
    | panic => simp [hc, hl] at h1
    | ok r =>
      simp only [hc, hl] at h1 h2 h3
      cases hq : buildFromBundle E pos a r b spk with
      | mk res y =>
        obtain ⟨r', p', effs⟩ := y
        simp only [hq] at h1 h2 h3
        subst h1 h3
        obtain ⟨-, -, -, -, -, -, -, -, -, -, -, -, he⟩ := buildFromBundle_ok hq
        subst he
        simp only [Store.applyAll, Store.apply] at h2
        cases ht : r'.toStruct with
        | err e => simp [ht] at h2
        | panic => simp [ht] at h2
        | ok str =>
          simp only [ht, Prod.mk.injEq, and_true] at h2
          subst h2
          exact ⟨r, spk, r', rfl, rfl, hq, Store.load_stored ht (by simp [upd]), by simp [upd], rfl, rfl, rfl⟩

end Verif
