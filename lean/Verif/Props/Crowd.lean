import Verif.Model.Crowd
import Verif.Props.Hostile
import Verif.Props.Bounds
import Verif.Proofs.ToyFlow2
/-
C79: a conversation is not affected by what its users do besides it.
-/
namespace Verif
open Talk

/-! ### Stored sessions stay within what the library can produce -/

/-- Every stored session is one the library can have produced (as in C06). -/
def Store.AllReachable (st : Store) : Prop := ∀ a r, st.load a = .ok r → Reachable r

theorem load_congr {st st' : Store} {a : Addr} (h : st'.sessions a = st.sessions a) : st'.load a = st.load a := by
  simp only [Store.load, h]

theorem apply_reachable {st st' : Store} {e : Effect} (h : st.AllReachable) (he : ∀ a r, e = .storeSession a r → Reachable r) (ha : st.apply e = some st') : st'.AllReachable := by
  cases e with
  | saveIdentity a k => simp only [Store.apply, Option.some.injEq] at ha; subst ha; exact h
  | removePreKey id => simp only [Store.apply, Option.some.injEq] at ha; subst ha; exact h
  | storeSession a r =>
    simp only [Store.apply] at ha
    cases hs : r.toStruct with
    | err e => simp [hs] at ha
    | panic => simp [hs] at ha
    | ok x =>
      simp only [hs, Option.some.injEq] at ha
      subst ha
      intro b r' hr'
      by_cases hb : b = a
      · subst hb
        simp only [Store.load, upd, if_true] at hr'
        cases hx : Rec.ofStruct x with
        | err e => simp [hx] at hr'
        | panic => simp [hx] at hr'
        | ok y =>
          simp only [hx, Res.ok.injEq] at hr'
          subst hr'
          exact .step (he b r rfl) (.reload hs hx)
      · exact h b r' (by simpa only [Store.load, upd, if_neg hb] using hr')

theorem applyAll_reachable {effs : List Effect} : ∀ {st : Store}, st.AllReachable → (∀ a r, Effect.storeSession a r ∈ effs → Reachable r) → (st.applyAll effs).1.AllReachable := by
  induction effs with
  | nil => intro st h _; exact h
  | cons e effs ih =>
    intro st h he
    unfold Store.applyAll
    cases ha : st.apply e with
    | none => exact h
    | some st' => exact ih (apply_reachable h (fun a r hr => he a r (hr ▸ List.mem_cons_self ..)) ha) fun a r hr => he a r (List.mem_cons_of_mem _ hr)

theorem encryptRec_stores {E : Env} {a b : Addr} {r r' : Rec} {pt : Bytes} (hr : Reachable r) (h : Effect.storeSession b r' ∈ (encryptRec E a r pt).2.2) : Reachable r' := by
  have hs := Reachable.step hr (.encrypt E a r pt)
  revert h hs
  unfold encryptRec
  split <;> simp
  rintro - rfl h; exact h

theorem decryptRec_stores {E : Env} {pos : Nat} {a b : Addr} {r r' : Rec} {m : SignalMsg} (hr : Reachable r)
    (h : Effect.storeSession b r' ∈ (decryptRec E pos a r m).2.2.2) : Reachable r' := by
  have hs := Reachable.step hr (.decrypt E pos r m)
  revert h hs
  unfold decryptRec
  cases hd : decryptWithRecord E pos r m with
  | mk res x =>
    obtain ⟨r1, pos1⟩ := x
    cases res <;> simp
    rintro - rfl h; exact h

theorem process_reachable {E : Env} {ids : Addr → Option Key32} {pk spk : UInt32 → Option IdKeyPair} {a : Addr} {r : Rec} {m : PreKeyMsg} (hr : Reachable r) :
    Reachable (process E ids pk spk a r m).2.1 := by
  have hs := Reachable.step hr (.preKeyMessage E pk spk r m)
  unfold process
  split
  · exact hr
  · cases hp : processV3 E pk spk r m with
    | mk res r' => rw [hp] at hs; cases res <;> exact hs

theorem decryptPreKeyRec_stores {E : Env} {ids : Addr → Option Key32} {pk spk : UInt32 → Option IdKeyPair} {pos : Nat} {a b : Addr} {r r' : Rec} {m : PreKeyMsg} (hr : Reachable r)
    (h : Effect.storeSession b r' ∈ (decryptPreKeyRec E ids pk spk pos a r m).2.2.2) : Reachable r' := by
  have hp := process_reachable (E := E) (ids := ids) (pk := pk) (spk := spk) (a := a) (m := m) hr
  have hf := process_for E ids pk spk a r m
  revert h
  unfold decryptPreKeyRec
  cases hpr : process E ids pk spk a r m with
  | mk res x =>
    obtain ⟨r1, eff⟩ := x
    rw [hpr] at hp hf
    have hno : Effect.storeSession b r' ∉ eff := fun h => by simpa using hf _ h
    cases res with
    | err e => intro h; exact absurd h hno
    | panic => intro h; exact absurd h hno
    | ok id =>
      have hs := Reachable.step hp (.decrypt E pos r1 m.message)
      simp only
      cases hd : decryptWithRecord E pos r1 m.message with
      | mk res2 y =>
        obtain ⟨r2, pos2⟩ := y
        rw [hd] at hs
        cases res2 with
        | err e => intro h; exact absurd h hno
        | panic => intro h; exact absurd h hno
        | ok z =>
          have key : Effect.storeSession b r' ∈ eff ++ [Effect.storeSession a r2] → Reachable r' := by
            intro h
            simp only [List.mem_append, List.mem_cons, Effect.storeSession.injEq, List.not_mem_nil, or_false] at h
            rcases h with h | ⟨-, rfl⟩
            · exact absurd h hno
            · exact hs
          cases id with
          | none => exact key
          | some o =>
            simp only
            split
            · exact key
            · intro h
              rw [List.mem_append] at h
              rcases h with h | h
              · exact key h
              · simp at h

theorem buildFromBundle_stores {E : Env} {pos : Nat} {a b : Addr} {r r' : Rec} {bn : Bundle} {spk : Key32} (hr : Reachable r)
    (h : Effect.storeSession b r' ∈ (buildFromBundle E pos a r bn spk).2.2.2) : Reachable r' := by
  have hs := Reachable.step hr (.bundle E pos a r bn spk)
  have hor : (buildFromBundle E pos a r bn spk).2.2.2 = [] ∨
      (buildFromBundle E pos a r bn spk).2.2.2 = [.storeSession a (buildFromBundle E pos a r bn spk).2.1, .saveIdentity a (some bn.identityKey)] := by
    unfold buildFromBundle
    split
    · exact .inl rfl
    · exact .inl rfl
    · simp only
      split
      · exact .inl rfl
      · split
        · exact .inl rfl
        · exact .inl rfl
        · split
          · exact .inl rfl
          · exact .inl rfl
          · split
            · exact .inl rfl
            · exact .inl rfl
            · exact .inr rfl
  rcases hor with h0 | h0
  · rw [h0] at h; simp at h
  · rw [h0] at h
    simp only [List.mem_cons, Effect.storeSession.injEq, reduceCtorEq, List.not_mem_nil, or_false] at h
    rw [h.2]; exact hs

theorem buildFromBundle_pos (E : Env) (pos : Nat) (a : Addr) (r : Rec) (bn : Bundle) (spk : Key32) :
    pos ≤ (buildFromBundle E pos a r bn spk).2.2.1 ∧ (buildFromBundle E pos a r bn spk).2.2.1 ≤ pos + 2 := by
  unfold buildFromBundle
  split
  · simp
  · simp
  · simp only
    split
    · simp
    · split
      · simp
      · simp
      · split
        · simp
        · simp
        · split <;> simp

theorem applyAll_keys {effs : List Effect} : ∀ {st : Store}, (st.applyAll effs).1.signedPreKeys = st.signedPreKeys ∧
    ∀ id, Effect.removePreKey id ∉ effs → (st.applyAll effs).1.preKeys id = st.preKeys id := by
  induction effs with
  | nil => intro st; exact ⟨rfl, fun _ _ => rfl⟩
  | cons e effs ih =>
    intro st
    unfold Store.applyAll
    cases ha : st.apply e with
    | none => exact ⟨rfl, fun _ _ => rfl⟩
    | some st' =>
      have h1 : st'.signedPreKeys = st.signedPreKeys ∧ ∀ id, e ≠ .removePreKey id → st'.preKeys id = st.preKeys id := by
        cases e with
        | saveIdentity a k => simp only [Store.apply, Option.some.injEq] at ha; subst ha; exact ⟨rfl, fun _ _ => rfl⟩
        | removePreKey i =>
          simp only [Store.apply, Option.some.injEq] at ha; subst ha
          refine ⟨rfl, fun id hne => ?_⟩
          have : id ≠ i := fun hx => hne (by rw [hx])
          simp [upd, this]
        | storeSession a r =>
          simp only [Store.apply] at ha
          split at ha
          · simp only [Option.some.injEq] at ha; subst ha; exact ⟨rfl, fun _ _ => rfl⟩
          · simp at ha
      refine ⟨(ih (st := st')).1.trans h1.1, fun id hid => ?_⟩
      rw [List.mem_cons, not_or] at hid
      exact ((ih (st := st')).2 id hid.2).trans (h1.2 id (fun hx => hid.1 hx.symm))

theorem processV3_id {E : Env} {pk spk : UInt32 → Option IdKeyPair} {r : Rec} {m : PreKeyMsg} {o : OptU32} (h : (processV3 E pk spk r m).1 = .ok (some o)) (ho : o.isEmpty = false) :
    m.struct.preKeyId = some o := by
  unfold processV3 at h
  split at h
  · simp only [Res.ok.injEq, Option.some.injEq] at h; subst h; simp [OptU32.empty] at ho
  · split at h
    · simp at h
    · simp only at h
      split at h
      · simp at h
      · simp at h
      · split at h
        · simp at h
        · simp at h
        · simp only [Res.ok.injEq] at h
          split at h
          · simp at h
          · split at h
            · simp at h
            · rename_i e _; rw [e]; exact h

theorem decryptPreKeyRec_removes {E : Env} {ids : Addr → Option Key32} {pk spk : UInt32 → Option IdKeyPair} {pos : Nat} {a : Addr} {r : Rec} {m : PreKeyMsg} {id : UInt32}
    (h : Effect.removePreKey id ∈ (decryptPreKeyRec E ids pk spk pos a r m).2.2.2) : ∃ o, m.struct.preKeyId = some o ∧ o.value = id := by
  have hf := process_for E ids pk spk a r m
  have hid : ∀ o, (process E ids pk spk a r m).1 = .ok (some o) → o.isEmpty = false → m.struct.preKeyId = some o := by
    intro o h1 h2
    unfold process at h1
    split at h1
    · simp at h1
    · cases hp : processV3 E pk spk r m with
      | mk res r' =>
        rw [hp] at h1
        cases res with
        | err e => simp at h1
        | panic => simp at h1
        | ok x =>
          simp only [Res.ok.injEq] at h1
          subst h1
          exact processV3_id (by rw [hp]) h2
  revert h
  unfold decryptPreKeyRec
  cases hpr : process E ids pk spk a r m with
  | mk res x =>
    obtain ⟨r1, eff⟩ := x
    rw [hpr] at hf hid
    have hno : Effect.removePreKey id ∉ eff := fun h => by simpa using hf _ h
    cases res with
    | err e => intro h; exact absurd h hno
    | panic => intro h; exact absurd h hno
    | ok oid =>
      simp only
      cases hd : decryptWithRecord E pos r1 m.message with
      | mk res2 y =>
        obtain ⟨r2, pos2⟩ := y
        cases res2 with
        | err e => intro h; exact absurd h hno
        | panic => intro h; exact absurd h hno
        | ok z =>
          have hno2 : Effect.removePreKey id ∉ eff ++ [Effect.storeSession a r2] := by
            simp only [List.mem_append, List.mem_cons, reduceCtorEq, List.not_mem_nil, or_false]; exact hno
          cases oid with
          | none => intro h; exact absurd h hno2
          | some o =>
            simp only
            split
            · intro h; exact absurd h hno2
            · rename_i he
              intro h
              rw [List.mem_append] at h
              rcases h with h | h
              · exact absurd h hno2
              · simp only [List.mem_cons, Effect.removePreKey.injEq, List.not_mem_nil, or_false] at h
                exact ⟨o, hid o rfl (by simpa using he), h.symm⟩

theorem prev_le {r : Rec} (h : Reachable r) : r.prev.length ≤ 40 := by
  have := (C06_bounded r h).2
  simpa [Rec.prevStates] using this

/-- A call keeps all stored sessions reachable, draws at most 42 random keys, removes no one-time prekey but the one a prekey message names, and never touches signed prekeys. -/
theorem call_frame {E : Env} {st : Store} (pos : Nat) (c : Call) (h : st.AllReachable) :
    (st.call E pos c).2.1.AllReachable ∧ (pos ≤ (st.call E pos c).2.2 ∧ (st.call E pos c).2.2 ≤ pos + 42) ∧
    (st.call E pos c).2.1.signedPreKeys = st.signedPreKeys ∧
    (∀ id, ¬ (Errand.call c).NeedsPreKey id → (st.call E pos c).2.1.preKeys id = st.preKeys id) := by
  have key : ∀ (effs : List Effect), (∀ a r, Effect.storeSession a r ∈ effs → Reachable r) → (∀ id, Effect.removePreKey id ∈ effs → (Errand.call c).NeedsPreKey id) →
      (st.applyAll effs).1.AllReachable ∧ (st.applyAll effs).1.signedPreKeys = st.signedPreKeys ∧
      (∀ id, ¬ (Errand.call c).NeedsPreKey id → (st.applyAll effs).1.preKeys id = st.preKeys id) :=
    fun effs h1 h2 => ⟨applyAll_reachable h h1, applyAll_keys.1, fun id hid => applyAll_keys.2 id (fun hm => hid (h2 id hm))⟩
  cases c with
  | encrypt a pt =>
    simp only [Store.call, Store.encrypt, finish_snd]
    have := key (st.encryptTrace E a pt).2 ?_ ?_
    · exact ⟨this.1, by omega, this.2⟩
    · intro b r hm
      unfold Store.encryptTrace at hm
      cases hl : st.load a with
      | err e => simp [hl] at hm
      | panic => simp [hl] at hm
      | ok r0 => simp only [hl] at hm; exact encryptRec_stores (h a r0 hl) hm
    · intro id hm
      unfold Store.encryptTrace at hm
      cases hl : st.load a with
      | err e => simp [hl] at hm
      | panic => simp [hl] at hm
      | ok r0 => simp only [hl] at hm; unfold encryptRec at hm; split at hm <;> simp at hm
  | decrypt a m =>
    simp only [Store.call, Store.decrypt, finish_snd]
    have := key (st.decryptTrace E pos a m).2.2 ?_ ?_
    · refine ⟨this.1, ?_, this.2⟩
      unfold Store.decryptTrace
      split
      · simp
      · cases hl : st.load a with
        | err e => simp
        | panic => simp
        | ok r =>
          have h1 := decryptRec_pos E pos a r m
          have h2 := prev_le (h a r hl)
          exact ⟨h1.1, Nat.le_trans h1.2 (by omega)⟩
    · intro b r hm
      unfold Store.decryptTrace at hm
      split at hm
      · simp at hm
      · cases hl : st.load a with
        | err e => simp [hl] at hm
        | panic => simp [hl] at hm
        | ok r0 => simp only [hl] at hm; exact decryptRec_stores (h a r0 hl) hm
    · intro id hm
      unfold Store.decryptTrace at hm
      split at hm
      · simp at hm
      · cases hl : st.load a with
        | err e => simp [hl] at hm
        | panic => simp [hl] at hm
        | ok r0 => simp only [hl] at hm; unfold decryptRec at hm; split at hm <;> simp at hm
  | decryptPreKey a m =>
    simp only [Store.call, Store.decryptPreKey, finish_snd]
    have := key (st.decryptPreKeyTrace E pos a m).2.2 ?_ ?_
    · refine ⟨this.1, ?_, this.2⟩
      unfold Store.decryptPreKeyTrace
      cases hl : st.load a with
      | err e => simp
      | panic => simp
      | ok r =>
        have h1 := decryptPreKeyRec_pos E st.identities st.preKeys st.signedPreKeys pos a r m
        have h2 := prev_le (h a r hl)
        exact ⟨h1.1, Nat.le_trans h1.2 (by omega)⟩
    · intro b r hm
      unfold Store.decryptPreKeyTrace at hm
      cases hl : st.load a with
      | err e => simp [hl] at hm
      | panic => simp [hl] at hm
      | ok r0 => simp only [hl] at hm; exact decryptPreKeyRec_stores (h a r0 hl) hm
    · intro id hm
      unfold Store.decryptPreKeyTrace at hm
      cases hl : st.load a with
      | err e => simp [hl] at hm
      | panic => simp [hl] at hm
      | ok r0 => simp only [hl] at hm; exact decryptPreKeyRec_removes hm
  | processBundle a bn =>
    simp only [Store.call, Store.processBundle, finish_snd]
    have := key (st.processBundleTrace E pos a bn).2.2 ?_ ?_
    · refine ⟨this.1, ?_, this.2⟩
      unfold Store.processBundleTrace
      split
      · simp
      · simp
      · rename_i spk _
        cases hl : st.load a with
        | err e => simp
        | panic => simp
        | ok r =>
          have h1 := buildFromBundle_pos E pos a r bn spk
          exact ⟨h1.1, Nat.le_trans h1.2 (by omega)⟩
    · intro b r hm
      unfold Store.processBundleTrace at hm
      split at hm
      · simp at hm
      · simp at hm
      · cases hl : st.load a with
        | err e => simp [hl] at hm
        | panic => simp [hl] at hm
        | ok r0 => simp only [hl] at hm; exact buildFromBundle_stores (h a r0 hl) hm
    · intro id hm
      unfold Store.processBundleTrace at hm
      split at hm
      · simp at hm
      · simp at hm
      · cases hl : st.load a with
        | err e => simp [hl] at hm
        | panic => simp [hl] at hm
        | ok r0 =>
          simp only [hl] at hm
          unfold buildFromBundle at hm
          exfalso
          split at hm
          · simp at hm
          · simp at hm
          · simp only at hm
            split at hm
            · simp at hm
            · split at hm
              · simp at hm
              · simp at hm
              · split at hm
                · simp at hm
                · simp at hm
                · split at hm <;> simp at hm

/-! ### The stores of both users -/

theorem Node.say_reachable {E : Env} {a : Addr} {n : Node} {t : Bytes} (h : n.st.AllReachable) : (n.say E a t).2.st.AllReachable := by
  have := (call_frame (E := E) n.pos (.encrypt a t) h).1
  simp only [Store.call] at this
  unfold Node.say
  cases he : n.st.encrypt E a t with
  | mk res st' => rw [he] at this; cases res <;> exact this

theorem Node.hear_reachable {E : Env} {a : Addr} {n : Node} {p : Packet} (h : n.st.AllReachable) : (n.hear E a p).2.st.AllReachable := by
  cases p with
  | signal b =>
    simp only [Node.hear]
    cases newSignalMessageFromBytes E.S b with
    | ok m => exact (call_frame (E := E) n.pos (.decrypt a m) h).1
    | err e => exact h
    | panic => exact h
  | preKey b =>
    simp only [Node.hear]
    cases newPreKeyMessageFromBytes E.P E.S b with
    | ok m => exact (call_frame (E := E) n.pos (.decryptPreKey a m) h).1
    | err e => exact h
    | panic => exact h

/-- What an errand leaves alone. -/
theorem errand_frame {E : Env} {n : Node} {peer : Addr} (x : Errand) (h : n.st.AllReachable) (hp : ¬ x.About peer) :
    (n.errand E x).st.AllReachable ∧ (n.pos ≤ (n.errand E x).pos ∧ (n.errand E x).pos ≤ n.pos + 42) ∧
    (n.errand E x).st.sessions peer = n.st.sessions peer ∧ (n.errand E x).st.identities peer = n.st.identities peer ∧
    (∀ id, ¬ x.NeedsPreKey id → (n.errand E x).st.preKeys id = n.st.preKeys id) ∧
    (∀ id, ¬ x.ReplacesSigned id → (n.errand E x).st.signedPreKeys id = n.st.signedPreKeys id) := by
  cases x with
  | call c =>
    obtain ⟨h1, h2, h3, h4⟩ := call_frame (E := E) n.pos c h
    have h5 : (n.st.call E n.pos c).2.1.sessions peer = n.st.sessions peer ∧ (n.st.call E n.pos c).2.1.identities peer = n.st.identities peer := by
      have hne : peer ≠ c.addr := fun hx => hp hx.symm
      cases c with
      | encrypt a pt => exact (C42_isolation E n.st n.pos a peer hne).1 pt
      | decrypt a m => exact (C42_isolation E n.st n.pos a peer hne).2.1 m
      | decryptPreKey a m => exact (C42_isolation E n.st n.pos a peer hne).2.2.1 m
      | processBundle a bn => exact (C42_isolation E n.st n.pos a peer hne).2.2.2 bn
    exact ⟨h1, h2, h5.1, h5.2, h4, fun id _ => congrFun h3 id⟩
  | generate => exact ⟨h, ⟨Nat.le_succ _, Nat.add_le_add_left (by decide) _⟩, rfl, rfl, fun _ _ => rfl, fun _ _ => rfl⟩
  | saveIdentity a k =>
    refine ⟨h, ⟨Nat.le_refl _, Nat.le_add_right ..⟩, rfl, ?_, fun _ _ => rfl, fun _ _ => rfl⟩
    have : peer ≠ a := fun hx => hp hx.symm
    simp [Node.errand, upd, this]
  | deleteSession a =>
    have : peer ≠ a := fun hx => hp hx.symm
    refine ⟨?_, ⟨Nat.le_refl _, Nat.le_add_right ..⟩, by simp [Node.errand, upd, this], rfl, fun _ _ => rfl, fun _ _ => rfl⟩
    intro b r hr
    by_cases hb : b = a
    · simp only [Node.errand, Store.load, upd, if_pos hb, Res.ok.injEq] at hr
      rw [← hr]; exact .new
    · exact h b r (by simpa only [Node.errand, Store.load, upd, if_neg hb] using hr)
  | storePreKey i kp =>
    refine ⟨h, ⟨Nat.le_refl _, Nat.le_add_right ..⟩, rfl, rfl, fun id hid => ?_, fun _ _ => rfl⟩
    have : id ≠ i := fun hx => hid hx.symm
    simp [Node.errand, upd, this]
  | removePreKey i =>
    refine ⟨h, ⟨Nat.le_refl _, Nat.le_add_right ..⟩, rfl, rfl, fun id hid => ?_, fun _ _ => rfl⟩
    have : id ≠ i := fun hx => hid hx.symm
    simp [Node.errand, upd, this]
  | storeSignedPreKey i kp =>
    refine ⟨h, ⟨Nat.le_refl _, Nat.le_add_right ..⟩, rfl, rfl, fun _ _ => rfl, fun id hid => ?_⟩
    have : id ≠ i := fun hx => hid hx.symm
    simp [Node.errand, upd, this]
  | removeSignedPreKey i =>
    refine ⟨h, ⟨Nat.le_refl _, Nat.le_add_right ..⟩, rfl, rfl, fun _ _ => rfl, fun id hid => ?_⟩
    have : id ≠ i := fun hx => hid hx.symm
    simp [Node.errand, upd, this]

/-- An errand of one of the users. -/
theorem Inv.errand {X : Setup} {w : World} {c : Conv} {es : Nat → Key32} {left : Nat} (h : Inv X w c es (left + 42)) (s : Side) (x : Errand)
    (hr : (w.node s).st.AllReachable) (hp : ¬ x.About (X.addr s.peer)) (hbob : s = .bob → ¬ x.NeedsPreKey X.otId ∧ ¬ x.ReplacesSigned X.spkId) :
    Inv X ⟨upd w.node s ((w.node s).errand (X.env s) x), w.wire⟩ c es left := by
  obtain ⟨-, h2, h3, h4, h5, h6⟩ := errand_frame (E := X.env s) x hr hp
  refine h.untouched s h2 ?_ ?_
  · intro st hb
    rcases hb with ⟨ps, q1, q2⟩ | ⟨rfl, q2, ⟨r, q3, q4⟩, q5, q6, q7⟩
    · exact .inl ⟨ps, ⟨(load_congr h3).trans q1.load, q1.init, q1.inits, q1.version⟩, q2⟩
    · exact .inr ⟨rfl, q2, ⟨r, (load_congr h3).trans q3, q4⟩, fun hc => h3.trans (q5 hc), (h5 _ (hbob rfl).1).trans q6, q7⟩
  · rintro rfl
    refine ⟨(h6 _ (hbob rfl).2).trans h.spk, ?_⟩
    have h4' : ((w.node .bob).errand (X.env .bob) x).st.identities (X.addr .alice) = (w.node .bob).st.identities (X.addr .alice) := h4
    rw [h4']; exact h.ident

theorem upd_reachable {w : World} {s : Side} {n : Node} (hw : ∀ s, (w.node s).st.AllReachable) (hn : n.st.AllReachable) (t : Side) : (upd w.node s n t).st.AllReachable := by
  unfold upd; split
  · exact hn
  · exact hw t

theorem World.hstep_reachable {env : Side → Env} {addr : Side → Addr} {w : World} (hw : ∀ s, (w.node s).st.AllReachable) (e : HEvent) :
    ∀ s, ((w.hstep env addr e).2.node s).st.AllReachable := by
  cases e with
  | inject s p => exact upd_reachable hw (Node.hear_reachable (hw s))
  | honest e =>
    cases e with
    | say s text =>
      have hs := Node.say_reachable (E := env s) (a := addr s.peer) (t := text) (hw s)
      simp only [World.hstep, World.step]
      cases hx : (w.node s).say (env s) (addr s.peer) text with
      | mk res n => rw [hx] at hs; cases res <;> exact upd_reachable hw hs
    | deliver i =>
      simp only [World.hstep, World.step]
      cases hx : w.wire[i]? with
      | none => exact hw
      | some q => obtain ⟨s, p⟩ := q; exact upd_reachable hw (Node.hear_reachable (hw _))

/-- One event of a conversation with made-up packets. -/
theorem Inv.hstep {X : Setup} (hX : X.Ok) (hcl : X.clean) {w : World} {c : Conv} {es : Nat → Key32} {left : Nat} (h : Inv X w c es (left + 2)) (ev : HEvent)
    (hl : ∀ s t, ev = .honest (.say s t) → t.length < 2 ^ 63) (hpin : (∃ b, ev = .inject .bob (.preKey b)) → X.Pinned)
    (hno : ∀ r ops, (w.hstep X.env X.addr ev).1 = .injected r ops → NoSession ops) :
    match ev with
    | .inject .. => Inv X (w.hstep X.env X.addr ev).2 c es left
    | .honest e => ∀ o c', c.step e = some (o, c') → ∃ o' es', (w.hstep X.env X.addr ev).1 = .honest o' ∧ Matches o o' ∧ Inv X (w.hstep X.env X.addr ev).2 c' es' left := by
  cases ev with
  | inject s p =>
    refine h.inject hcl s p ?_ (hno _ _ rfl)
    rintro rfl ⟨b, rfl⟩
    exact hpin ⟨b, rfl⟩
  | honest ev =>
    have h := Inv.weaken (l' := left + 1) h (by omega)
    intro o c' ho
    cases ev with
    | say s text =>
      by_cases ht : (c.party s).turn = 0
      · simp [Talk.Conv.step, ht] at ho
      · obtain ⟨p, n, h1, h2⟩ := h.say hX s (hl s text rfl) ht
        have hstep : c.step (.say s text) = some (.said, c.said s text) := by simp only [Talk.Conv.step, if_neg ht]; rfl
        rw [hstep, Option.some.injEq, Prod.mk.injEq] at ho
        obtain ⟨rfl, rfl⟩ := ho
        simp only [World.hstep, World.step, h1]
        exact ⟨_, es, rfl, trivial, h2⟩
    | deliver i =>
      cases hn : c.notes[i]? with
      | none => simp [Talk.Conv.step, hn] at ho
      | some n =>
        obtain ⟨⟨sd, p⟩, hw, hp⟩ := all2_get h.wire hn
        have hsd : sd = n.sender := hp.side
        subst hsd
        have hd := h.deliver hX hp
        simp only [Talk.Conv.step, hn] at ho
        simp only [World.hstep, World.step, hw]
        cases hv : (c.party n.sender.peer).receive n.turn n.number with
        | forgotten => rw [hv] at ho; simp at ho
        | refused =>
          rw [hv] at ho hd
          simp only [Option.some.injEq, Prod.mk.injEq] at ho hd
          obtain ⟨rfl, rfl⟩ := ho
          obtain ⟨e, n', h1, h2⟩ := hd hcl
          rw [h1]
          exact ⟨_, es, rfl, trivial, h2⟩
        | accepted p' =>
          rw [hv] at ho hd
          simp only [Option.some.injEq, Prod.mk.injEq] at ho hd
          obtain ⟨rfl, rfl⟩ := ho
          obtain ⟨n', es', h1, h2⟩ := hd
          rw [h1]
          exact ⟨_, es', rfl, rfl, h2⟩

theorem Inv.crun {X : Setup} (hX : X.Ok) (hcl : X.clean) (evs : List CEvent) (hl : ∀ s t, CEvent.talk (.honest (.say s t)) ∈ evs → t.length < 2 ^ 63)
    (hpin : (∃ b, CEvent.talk (.inject .bob (.preKey b)) ∈ evs) → X.Pinned)
    (hother : ∀ s x, CEvent.errand s x ∈ evs → ¬ x.About (X.addr s.peer) ∧ (s = .bob → ¬ x.NeedsPreKey X.otId ∧ ¬ x.ReplacesSigned X.spkId)) :
    ∀ {w : World} {c : Conv} {es : Nat → Key32}, Inv X w c es (42 * evs.length) → (∀ s, (w.node s).st.AllReachable) →
      (∀ r ops, HOut.injected r ops ∈ w.crun X.env X.addr evs → NoSession ops) →
      ∀ outs, c.run (honestEvents (talkEvents evs)) = some outs → All2 Matches outs (honestOuts (w.crun X.env X.addr evs)) := by
  induction evs with
  | nil => intro w c es _ _ _ outs ho; simp only [talkEvents, honestEvents, Talk.Conv.run, Option.some.injEq] at ho; subst ho; exact .nil
  | cons ev evs ih =>
    intro w c es h hw hno outs ho
    have ih := @ih (fun s t hm => hl s t (List.mem_cons_of_mem _ hm)) (fun ⟨b, hb⟩ => hpin ⟨b, List.mem_cons_of_mem _ hb⟩) (fun s x hm => hother s x (List.mem_cons_of_mem _ hm))
    simp only [World.crun] at hno ⊢
    have hno2 : ∀ r ops, HOut.injected r ops ∈ ((w.cstep X.env X.addr ev).2).crun X.env X.addr evs → NoSession ops :=
      fun r ops hm => hno r ops (List.mem_append_right _ hm)
    have hlen : 42 * (ev :: evs).length = 42 * evs.length + 42 := by simp only [List.length_cons]; omega
    rw [hlen] at h
    cases ev with
    | errand s x =>
      obtain ⟨h1, h2⟩ := hother s x (List.mem_cons_self ..)
      exact ih (h.errand s x (hw s) h1 h2) (upd_reachable hw (errand_frame x (hw s) h1).1) hno2 outs ho
    | talk ev =>
      have hs := (h.weaken (l' := 42 * evs.length + 2) (by omega)).hstep hX hcl ev (fun s t he => hl s t (he ▸ List.mem_cons_self ..))
        (fun ⟨b, hb⟩ => hpin ⟨b, hb ▸ List.mem_cons_self ..⟩) (fun r ops hm => hno r ops (List.mem_append_left _ (by simp [World.cstep, hm])))
      have hw' := World.hstep_reachable (env := X.env) (addr := X.addr) hw ev
      cases ev with
      | inject s p => exact ih hs hw' hno2 outs ho
      | honest e =>
        simp only [talkEvents, honestEvents, Talk.Conv.run] at ho
        cases hc : c.step e with
        | none => simp [hc] at ho
        | some q =>
          obtain ⟨o, c'⟩ := q
          simp only [hc, Option.map_eq_some_iff] at ho
          obtain ⟨os, ho1, rfl⟩ := ho
          obtain ⟨o', es', q1, q2, q3⟩ := hs o c' hc
          simp only [World.cstep] at hno2 ⊢
          rw [q1]
          exact .cons q2 (ih q3 hw' hno2 os ho1)

/-- **C79.** The situation of C03, with a network that makes up packets (C68), and both users besides doing anything else they like with the same stores, at any time: calls for any
other peers with any arguments (including messages and bundles made up by those peers), generating keys, storing and removing prekeys, saving identities and deleting sessions of others.
All stored sessions are ones the library can have produced.  Bob does not use up, replace or remove the two prekeys of the bundle Alice got.  Then everything the two users observe of
their conversation is what the specification says, exactly as if they did nothing else. -/
theorem C79_other_conversations {C : Crypto} (hdh : C.DhLaw) (haes : C.AesLaw) {A B : Env} {addrA addrB : Addr} {stA stB stA' : Store} {posA posB posA' : Nat}
    {b : Bundle} {spk ot : IdKeyPair} (evs : List CEvent) (h : Meeting C A B addrA addrB stA stB stA' posA posB posA' b spk ot (42 * evs.length))
    (hn : 42 * evs.length < 2 ^ 32) (ht : ∀ s t, CEvent.talk (.honest (.say s t)) ∈ evs → t.length < 2 ^ 63)
    (reachA : ∀ a r, stA'.load a = .ok r → Reachable r) (reachB : ∀ a r, stB.load a = .ok r → Reachable r)
    (othersA : ∀ x, CEvent.errand .alice x ∈ evs → ¬ x.About addrB)
    (othersB : ∀ x, CEvent.errand .bob x ∈ evs → ¬ x.About addrA ∧ (∀ id, b.preKeyId = some (OptU32.new id) → ¬ x.NeedsPreKey id) ∧ ¬ x.ReplacesSigned b.signedPreKeyId)
    (pinned : (∃ b, CEvent.talk (.inject .bob (.preKey b)) ∈ evs) → ∀ ids k,
      (stB.identities addrA = none ∧ ids addrA = none) ∨ ids addrA = some A.identity.pub → B.trusted ids addrA k = true → k = A.identity.pub)
    (refused : ∀ r ops, HOut.injected r ops ∈ World.crun (sides A B) (sides addrA addrB) ⟨sides ⟨stA', posA'⟩ ⟨stB, posB⟩, []⟩ evs → NoSession ops)
    (outs : List Outcome) (ho : Conv.start.run (honestEvents (talkEvents evs)) = some outs) :
    All2 Matches outs (honestOuts (World.crun (sides A B) (sides addrA addrB) ⟨sides ⟨stA', posA'⟩ ⟨stB, posB⟩, []⟩ evs)) := by
  obtain ⟨X, es, hX, h1, h2, h3, hcl, ⟨h4, h5⟩, hi⟩ := h.inv hdh haes hn
  rw [← h1, ← h2] at refused ⊢
  refine hi.crun hX hcl evs ht ?_ ?_ ?_ refused outs ho
  · intro hb ids k hk
    have := pinned hb ids k
    simp only [Setup.ident, h1, h2, h3, sides] at hk ⊢
    exact this hk
  · intro s x hm
    rw [h2]
    cases s with
    | alice => exact ⟨othersA x hm, fun hx => by simp at hx⟩
    | bob =>
      obtain ⟨o1, o2, o3⟩ := othersB x hm
      exact ⟨o1, fun _ => ⟨o2 _ h4, by rw [h5]; exact o3⟩⟩
  · intro s; cases s
    · exact reachA
    · exact reachB

section
open Toy

/-- A random source with a longer period than the toy users'. -/
def wideRng (seed : UInt8) (n : Nat) : Option Key32 :=
  some ⟨(List.range 32).map (fun i => if i = 1 then UInt8.ofNat n else if i = 2 then UInt8.ofNat (n / 256) else seed), by simp⟩
def aliceW : Env := { aliceEnv with rng := wideRng 101 }
def bobW : Env := { bobEnv with rng := wideRng 102 }
/-- Somebody else, who also got a bundle of Bob's. -/
def carol : Addr := ⟨"carol", 1⟩
def carolEnv : Env := env 33 3
def carolMsg : PreKeyMsg := asPreKey ((emptyStore.processBundle carolEnv 0 bob bundle2).2.1.encrypt carolEnv bob [77]).1
def aliceW1 : Store := (emptyStore.processBundle aliceW 0 bob bundle).2.1

/-- A conversation between Alice and Bob; meanwhile Alice starts a session with Carol, Bob publishes a prekey, answers Carol, and forgets her. -/
def toyCrowd : List CEvent :=
  [.talk (.honest (.say .alice [1])), .errand .alice (.call (.processBundle carol bundle2)), .errand .bob .generate, .errand .bob (.storePreKey 10 oneTime2),
   .errand .alice (.call (.encrypt carol [5])), .errand .bob (.call (.decryptPreKey carol carolMsg)), .talk (.honest (.deliver 0)),
   .errand .bob (.call (.encrypt carol [6])), .talk (.honest (.say .bob [4])), .errand .bob (.deleteSession carol), .errand .bob (.removePreKey 10),
   .talk (.honest (.deliver 1)), .talk (.honest (.say .alice [5]))]

/-- Reads the position back from a drawn key. -/
def widePos : Option Key32 → Nat
  | none => 0
  | some k => ((k.bytes[1]?.getD 0) - 1).toNat + 256 * ((k.bytes[2]?.getD 0) - 1).toNat

set_option maxRecDepth 100000 in
theorem wideA : ∀ i < 600, widePos (aliceW.drawn i) = i := by decide +kernel
set_option maxRecDepth 100000 in
theorem wideB : ∀ i < 600, widePos (bobW.drawn i) = i := by decide +kernel

set_option maxRecDepth 100000 in
theorem toy_meeting_crowd : Meeting Toy.C aliceW bobW Toy.alice Toy.bob emptyStore bobStore aliceW1 0 0 2 bundle signedPre oneTime (42 * toyCrowd.length) := by
  refine ⟨rfl, rfl, .inl ⟨rfl, rfl⟩, ⟨rfl, rfl⟩, rfl, rfl, rfl, rfl, rfl, rfl, rfl, ⟨9, rfl, by decide, rfl⟩, rfl, rfl, rfl, .inl rfl, ?_, ?_, ⟨?_, ?_⟩, ⟨?_, ?_⟩, ?_⟩
  · intro ids h
    show (match ids Toy.alice with | none => true | some k' => k' == aliceEnv.identity.pub) = true
    rcases h with h | h <;> rw [h]
    simp
    rfl
  · refine Prod.ext (by decide +kernel) (Prod.ext rfl (by decide +kernel))
  · intro i _ _ h; simp [aliceW, wideRng] at h
  · intro i j h1 h2 h3 he
    simp only [toyCrowd, List.length_cons, List.length_nil] at h3
    have := wideA i (by omega); rw [he, wideA j (by omega)] at this; omega
  · intro i _ _ h; simp [bobW, wideRng] at h
  · intro i j h1 h2 h3 he
    simp only [toyCrowd, List.length_cons, List.length_nil] at h3
    have := wideB i (by omega); rw [he, wideB j (by omega)] at this; omega
  · intro i h1 h2 he
    simp only [toyCrowd, List.length_cons, List.length_nil] at h2
    have := wideB i (by omega)
    rw [he] at this
    have h3 : widePos (some signedPre.pub) = 10280 := by decide +kernel
    omega

/-- In the schedule Bob does read Carol's message, and Alice's session with Carol does start. -/
example : (({ bobStore with preKeys := upd bobStore.preKeys 10 (some oneTime2) } : Store).decryptPreKey bobW 1 carol carolMsg).1.map (·.1) = .ok [77] ∧
    (aliceW1.processBundle aliceW 2 carol bundle2).1 = .ok () := by decide +kernel

/-- Non-vacuity of C79. -/
example : All2 Matches [.said, .got [1], .said, .got [4], .said]
    (honestOuts (World.crun (sides aliceW bobW) (sides Toy.alice Toy.bob) ⟨sides ⟨aliceW1, 2⟩ ⟨bobStore, 0⟩, []⟩ toyCrowd)) := by
  have hempty : ∀ (st : Store), st.sessions = (fun _ => none) → st.AllReachable := by
    intro st hs a r hr
    simp only [Store.load, hs, Res.ok.injEq] at hr
    rw [← hr]; exact .new
  refine C79_other_conversations Toy.dhLaw Toy.aesLaw toyCrowd toy_meeting_crowd (by decide) ?_ ?_ (hempty _ rfl) ?_ ?_ ?_ ?_ _ (by decide +kernel)
  · intro s t hm
    simp only [toyCrowd, List.mem_cons, CEvent.talk.injEq, HEvent.honest.injEq, Event.say.injEq, reduceCtorEq, false_or, or_false, List.not_mem_nil] at hm
    rcases hm with ⟨-, rfl⟩ | ⟨-, rfl⟩ | ⟨-, rfl⟩ <;> decide
  · have := (call_frame (E := aliceW) 0 (.processBundle bob bundle) (hempty emptyStore rfl)).1
    simp only [Store.call] at this
    exact this
  · intro x hm
    simp only [toyCrowd, List.mem_cons, CEvent.errand.injEq, reduceCtorEq, false_and, true_and, false_or, or_false, List.not_mem_nil] at hm
    rcases hm with rfl | rfl <;> simp only [Errand.About, Call.addr] <;> decide
  · intro x hm
    have hid : carolMsg.struct.preKeyId = some (OptU32.new 10) := by decide +kernel
    simp only [toyCrowd, List.mem_cons, CEvent.errand.injEq, reduceCtorEq, false_and, true_and, false_or, or_false, List.not_mem_nil] at hm
    have h9 : ∀ id, bundle.preKeyId = some (OptU32.new id) → id = 9 := by
      intro id h; simp only [bundle, OptU32.new, Option.some.injEq, OptU32.mk.injEq, and_true] at h; exact h.symm
    rcases hm with rfl | rfl | rfl | rfl | rfl | rfl <;> refine ⟨?_, fun id h => ?_, ?_⟩ <;> try (have := h9 id h; subst this)
    all_goals simp only [Errand.About, Errand.NeedsPreKey, Errand.ReplacesSigned, Call.addr, hid, Option.some.injEq, exists_eq_left', OptU32.new, not_false_eq_true]
    all_goals decide
  · rintro ⟨b, hb⟩
    simp [toyCrowd] at hb
  · intro r ops hm
    have : ∀ (evs : List CEvent), (∀ s p, CEvent.talk (.inject s p) ∉ evs) → ∀ w, HOut.injected r ops ∉ World.crun (sides aliceW bobW) (sides Toy.alice Toy.bob) w evs := by
      intro evs
      induction evs with
      | nil => intro _ w hm; simp [World.crun] at hm
      | cons e evs ih =>
        intro h w hm
        rw [World.crun, List.mem_append] at hm
        rcases hm with hm | hm
        · cases e with
          | errand s x => simp [World.cstep] at hm
          | talk e =>
            cases e with
            | inject s p => exact h s p (List.mem_cons_self ..)
            | honest e => simp [World.cstep, World.hstep] at hm
        · exact ih (fun s p hx => h s p (List.mem_cons_of_mem _ hx)) _ hm
    exact absurd hm (this toyCrowd (by simp [toyCrowd]) _)

/-- Carol got the same one-time prekey as Alice. -/
def carolSame : PreKeyMsg := asPreKey ((emptyStore.processBundle carolEnv 0 bob bundle).2.1.encrypt carolEnv bob [77]).1

/-- **The condition of C79 on Bob's prekeys is needed:** when somebody else's message uses the one-time prekey first, Alice's first message is refused. -/
theorem C79_shared_prekey_needed : ∃ (A B : Env) (addrA addrB other : Addr) (w : World) (m : PreKeyMsg) (text : Bytes), other ≠ addrA ∧
    honestOuts (World.crun (sides A B) (sides addrA addrB) w [.talk (.honest (.say .alice text)), .talk (.honest (.deliver 0))]) = [.said (.ok ()), .heard (.ok text)] ∧
    honestOuts (World.crun (sides A B) (sides addrA addrB) w [.talk (.honest (.say .alice text)), .errand .bob (.call (.decryptPreKey other m)), .talk (.honest (.deliver 0))]) =
      [.said (.ok ()), .heard (.err .nilOneTimePreKey)] :=
  ⟨aliceW, bobW, Toy.alice, Toy.bob, carol, ⟨sides ⟨aliceW1, 2⟩ ⟨bobStore, 0⟩, []⟩, carolSame, [1], by decide, by decide +kernel, by decide +kernel⟩
end

end Verif
