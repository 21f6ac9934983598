import Verif.Model.Threads
import Verif.Props.Crowd
/-
C80: locks per peer make concurrent use of the session API equivalent to calls made one after the other.
-/
namespace Verif

/-! ### A call is its accesses -/

theorem effs_run {α : Type} (E : Env) (d x : α) : ∀ (es : List Effect) (st : Store),
    (Prog.effs d x es).run E st = (if (st.applyAll es).2 then x else d, (st.applyAll es).1) := by
  intro es
  induction es with
  | nil => intro st; rfl
  | cons e es ih =>
    intro st
    cases ha : st.apply e with
    | none => simp [Prog.effs, Prog.run, Store.applyAll, ha]
    | some st' => simp only [Prog.effs, Prog.run, Store.applyAll, ha]; exact ih st'

theorem finish_eq {α : Type} (st : Store) (res : Res α) (effs : List Effect) :
    finish st res effs = (if (st.applyAll effs).2 then res else .panic, (st.applyAll effs).1) := by
  unfold finish
  cases hx : st.applyAll effs with
  | mk st' b => cases b <;> rfl

/-- processV3 looks up only the keys the message names. -/
theorem processV3_lookup (E : Env) (pk spk : UInt32 → Option IdKeyPair) (r : Rec) (m : PreKeyMsg) :
    processV3 E pk spk r m =
      if r.hasSessionState m.struct.version (serPub m.baseKey) then processV3 E (fun _ => none) (fun _ => none) r m
      else match spk m.struct.signedPreKeyId with
        | none => (.panic, r)
        | some s =>
          match m.struct.preKeyId with
          | none => processV3 E (fun _ => none) (fun _ => some s) r m
          | some o => processV3 E (fun _ => pk o.value) (fun _ => some s) r m := by
  by_cases h : r.hasSessionState m.struct.version (serPub m.baseKey)
  · simp only [processV3, h, if_true]
  · simp only [h]
    unfold processV3
    simp only [h]
    cases spk m.struct.signedPreKeyId with
    | none => rfl
    | some s => cases m.struct.preKeyId <;> rfl

theorem decryptPreKeyEnd_run (E : Env) (pos : Nat) (a : Addr) (m : PreKeyMsg) (st : Store) (r : Rec) (pk spk : UInt32 → Option IdKeyPair) (ids : Addr → Option Key32)
    (ht : E.trusted ids a m.identityKey = true) :
    (decryptPreKeyEnd E pos a m (processV3 E pk spk r m)).run E st =
      (let x := decryptPreKeyRec E ids pk spk pos a r m
       ((.decrypted (finish st x.1 x.2.2.2).1, x.2.2.1), (finish st x.1 x.2.2.2).2)) := by
  unfold decryptPreKeyRec process
  simp only [ht, Bool.true_eq_false, if_false]
  cases hp : processV3 E pk spk r m with
  | mk res r1 =>
    cases res with
    | err e => simp only [decryptPreKeyEnd, Prog.run, finish_eq, Store.applyAll, if_true]
    | panic => simp only [decryptPreKeyEnd, Prog.run, finish_eq, Store.applyAll, if_true]
    | ok id =>
      simp only [decryptPreKeyEnd, Prog.run, Store.apply]
      cases hd : decryptWithRecord E pos r1 m.message with
      | mk res2 y =>
        obtain ⟨r2, pos2⟩ := y
        cases res2 with
        | err e => simp only [Prog.run, finish_eq, Store.applyAll, Store.apply, if_true]
        | panic => simp only [Prog.run, finish_eq, Store.applyAll, Store.apply, if_true]
        | ok x =>
          simp only [Prog.run, Store.apply]
          cases hs : r2.toStruct with
          | err e =>
            cases id with
            | none => simp [finish_eq, Store.applyAll, Store.apply, hs]
            | some o => by_cases ho : o.isEmpty <;> simp [ho, finish_eq, Store.applyAll, Store.apply, hs]
          | panic =>
            cases id with
            | none => simp [finish_eq, Store.applyAll, Store.apply, hs]
            | some o => by_cases ho : o.isEmpty <;> simp [ho, finish_eq, Store.applyAll, Store.apply, hs]
          | ok z =>
            cases id with
            | none => simp [finish_eq, Store.applyAll, Store.apply, hs, Prog.run]
            | some o => by_cases ho : o.isEmpty <;> simp [ho, finish_eq, Store.applyAll, Store.apply, hs, Prog.run]

/-- The accesses of a call, performed without interruption, are the call. -/
theorem prog_run (E : Env) (pos : Nat) (c : Call) (st : Store) :
    (c.prog E pos).run E st = (((st.call E pos c).1, (st.call E pos c).2.2), (st.call E pos c).2.1) := by
  cases c with
  | encrypt a pt =>
    simp only [Call.prog, encryptProg, Prog.run, Store.call, Store.encrypt, Store.encryptTrace]
    cases st.load a with
    | err e => simp [finish_eq, Store.applyAll, Prog.run]
    | panic => simp [finish_eq, Store.applyAll, Prog.run]
    | ok r => simp only [effs_run, finish_eq]; split <;> rfl
  | decrypt a m =>
    simp only [Call.prog, decryptProg, Prog.run, Store.call, Store.decrypt, Store.decryptTrace]
    cases hs : st.sessions a with
    | none => simp [finish_eq, Store.applyAll, Prog.run]
    | some s0 =>
      simp only [Option.isSome_some, Prog.run]
      cases st.load a with
      | err e => simp [finish_eq, Store.applyAll, Prog.run]
      | panic => simp [finish_eq, Store.applyAll, Prog.run]
      | ok r => simp only [effs_run, finish_eq]; split <;> rfl
  | decryptPreKey a m =>
    simp only [Call.prog, decryptPreKeyProg, Prog.run, Store.call, Store.decryptPreKey, Store.decryptPreKeyTrace]
    cases st.load a with
    | err e => simp [finish_eq, Store.applyAll, Prog.run]
    | panic => simp [finish_eq, Store.applyAll, Prog.run]
    | ok r =>
      simp only [Prog.run]
      cases ht : E.trusted st.identities a m.identityKey with
      | false => simp [decryptPreKeyRec, process, ht, finish_eq, Store.applyAll, Prog.run]
      | true =>
        have hlk := processV3_lookup E st.preKeys st.signedPreKeys r m
        have hend := fun pk spk => decryptPreKeyEnd_run E pos a m st r pk spk st.identities ht
        have hrec : ∀ pk spk, processV3 E st.preKeys st.signedPreKeys r m = processV3 E pk spk r m →
            decryptPreKeyRec E st.identities st.preKeys st.signedPreKeys pos a r m = decryptPreKeyRec E st.identities pk spk pos a r m := by
          intro pk spk hx; simp only [decryptPreKeyRec, process, hx]
        simp only
        by_cases hh : r.hasSessionState m.struct.version (serPub m.baseKey)
        · rw [if_pos hh] at hlk ⊢
          rw [hend, hrec _ _ hlk]
        · rw [if_neg hh] at hlk ⊢
          simp only [Prog.run]
          cases hsp : st.signedPreKeys m.struct.signedPreKeyId with
          | none =>
            rw [hsp] at hlk
            simp [decryptPreKeyRec, process, ht, hlk, finish_eq, Store.applyAll, Prog.run]
          | some s =>
            rw [hsp] at hlk
            simp only at hlk ⊢
            cases hpk : m.struct.preKeyId with
            | none =>
              rw [hpk] at hlk
              simp only at hlk ⊢
              rw [hend, hrec _ _ hlk]
            | some o =>
              rw [hpk] at hlk
              simp only [Prog.run] at hlk ⊢
              rw [hend, hrec _ _ hlk]
  | processBundle a b =>
    simp only [Call.prog, processBundleProg, Prog.run, Store.call, Store.processBundle, Store.processBundleTrace, checkBundle]
    cases ht : E.trusted st.identities a b.identityKey with
    | false => simp [finish_eq, Store.applyAll, Prog.run]
    | true =>
      simp only [Bool.true_eq_false, if_false]
      cases b.signedPreKeyPublic with
      | none => simp [finish_eq, Store.applyAll, Prog.run]
      | some spk =>
        simp only
        by_cases hv : E.C.verify b.identityKey (serPub spk) b.signature = false
        · simp [hv, finish_eq, Store.applyAll, Prog.run]
        · rw [if_neg hv, if_neg hv]
          simp only [Prog.run]
          cases hl : st.load a with
          | err e => simp [finish_eq, Store.applyAll, Prog.run]
          | panic => simp [finish_eq, Store.applyAll, Prog.run]
          | ok r => simp only [effs_run, finish_eq]; split <;> rfl

/-! ### What a call touches -/

section
variable {L : Type} (lockOf : Addr → L) (owner : UInt32 → L)

/-- The two stores agree on everything lock `l` guards (and on signed prekeys). -/
structure SamePart (l : L) (st st' : Store) : Prop where
  sessions : ∀ a, lockOf a = l → st.sessions a = st'.sessions a
  identities : ∀ a, lockOf a = l → st.identities a = st'.identities a
  preKeys : ∀ id, owner id = l → st.preKeys id = st'.preKeys id
  signed : st.signedPreKeys = st'.signedPreKeys

/-- A store operation on something lock `l` guards. -/
def Effect.In (l : L) : Effect → Prop
  | .saveIdentity a _ => lockOf a = l
  | .storeSession a _ => lockOf a = l
  | .removePreKey id => owner id = l

/-- All accesses are to things lock `l` guards. -/
inductive Prog.In {α : Type} (l : L) : Prog α → Prop where
  | done (x : α) : Prog.In l (.done x)
  | contains (a : Addr) (k : Bool → Prog α) : lockOf a = l → (∀ b, Prog.In l (k b)) → Prog.In l (.contains a k)
  | load (a : Addr) (k : Res Rec → Prog α) : lockOf a = l → (∀ r, Prog.In l (k r)) → Prog.In l (.load a k)
  | trusted (a : Addr) (key : Key32) (k : Bool → Prog α) : lockOf a = l → (∀ b, Prog.In l (k b)) → Prog.In l (.trusted a key k)
  | signed (id : UInt32) (k : Option IdKeyPair → Prog α) : (∀ b, Prog.In l (k b)) → Prog.In l (.signed id k)
  | preKey (id : UInt32) (k : Option IdKeyPair → Prog α) : owner id = l → (∀ b, Prog.In l (k b)) → Prog.In l (.preKey id k)
  | eff (e : Effect) (d : α) (k : Prog α) : e.In lockOf owner l → Prog.In l k → Prog.In l (.eff e d k)

/-- Whether a key is trusted for an address depends only on the keys stored for addresses with the same lock. -/
def LocalTrust (E : Env) : Prop :=
  ∀ ids ids' a k, (∀ b, lockOf b = lockOf a → ids b = ids' b) → E.trusted ids a k = E.trusted ids' a k

variable {lockOf owner}

theorem SamePart.refl (l : L) (st : Store) : SamePart lockOf owner l st st := ⟨fun _ _ => rfl, fun _ _ => rfl, fun _ _ => rfl, rfl⟩
theorem SamePart.symm {l : L} {st st' : Store} (h : SamePart lockOf owner l st st') : SamePart lockOf owner l st' st :=
  ⟨fun a ha => (h.1 a ha).symm, fun a ha => (h.2 a ha).symm, fun a ha => (h.3 a ha).symm, h.4.symm⟩
theorem SamePart.trans {l : L} {st st' st'' : Store} (h : SamePart lockOf owner l st st') (h' : SamePart lockOf owner l st' st'') : SamePart lockOf owner l st st'' :=
  ⟨fun a ha => (h.1 a ha).trans (h'.1 a ha), fun a ha => (h.2 a ha).trans (h'.2 a ha), fun a ha => (h.3 a ha).trans (h'.3 a ha), h.4.trans h'.4⟩

theorem apply_same {l : L} {st st' : Store} (h : SamePart lockOf owner l st st') (e : Effect) :
    (st.apply e = none ∧ st'.apply e = none) ∨ ∃ t t', st.apply e = some t ∧ st'.apply e = some t' ∧ SamePart lockOf owner l t t' := by
  cases e with
  | saveIdentity a k =>
    refine .inr ⟨_, _, rfl, rfl, h.1, fun b hb => ?_, h.3, h.4⟩
    simp only [upd]; split
    · rfl
    · exact h.2 b hb
  | removePreKey id =>
    refine .inr ⟨_, _, rfl, rfl, h.1, h.2, fun b hb => ?_, h.4⟩
    simp only [upd]; split
    · rfl
    · exact h.3 b hb
  | storeSession a r =>
    simp only [Store.apply]
    cases r.toStruct with
    | err e => exact .inl ⟨rfl, rfl⟩
    | panic => exact .inl ⟨rfl, rfl⟩
    | ok s =>
      refine .inr ⟨_, _, rfl, rfl, fun b hb => ?_, h.2, h.3, h.4⟩
      simp only [upd]; split
      · rfl
      · exact h.1 b hb

theorem apply_other {l l' : L} {st t : Store} {e : Effect} (he : e.In lockOf owner l) (hl : l' ≠ l) (h : st.apply e = some t) : SamePart lockOf owner l' t st := by
  cases e with
  | saveIdentity a k =>
    simp only [Store.apply, Option.some.injEq] at h; subst h
    refine ⟨fun _ _ => rfl, fun b hb => ?_, fun _ _ => rfl, rfl⟩
    have : b ≠ a := fun hx => hl (by rw [← hb, hx]; exact he)
    simp [upd, this]
  | removePreKey id =>
    simp only [Store.apply, Option.some.injEq] at h; subst h
    refine ⟨fun _ _ => rfl, fun _ _ => rfl, fun b hb => ?_, rfl⟩
    have : b ≠ id := fun hx => hl (by rw [← hb, hx]; exact he)
    simp [upd, this]
  | storeSession a r =>
    simp only [Store.apply] at h
    split at h
    · simp only [Option.some.injEq] at h; subst h
      refine ⟨fun b hb => ?_, fun _ _ => rfl, fun _ _ => rfl, rfl⟩
      have : b ≠ a := fun hx => hl (by rw [← hb, hx]; exact he)
      simp [upd, this]
    · simp at h

/-- An access sees and changes only what lock `l` guards. -/
theorem step_in {α : Type} {E : Env} (hE : LocalTrust lockOf E) {l : L} {p : Prog α} (hp : p.In lockOf owner l) {st st' : Store} (h : SamePart lockOf owner l st st') :
    (p.step E st).1 = (p.step E st').1 ∧ SamePart lockOf owner l (p.step E st).2 (p.step E st').2 ∧ ((p.step E st).1).In lockOf owner l ∧
    ∀ l', l' ≠ l → SamePart lockOf owner l' (p.step E st).2 st := by
  cases hp with
  | done x => exact ⟨rfl, h, .done x, fun l' _ => .refl l' st⟩
  | contains a k ha hk => exact ⟨by simp only [Prog.step, h.1 a ha], h, hk _, fun l' _ => .refl l' st⟩
  | load a k ha hk => exact ⟨by simp only [Prog.step, Store.load, h.1 a ha], h, hk _, fun l' _ => .refl l' st⟩
  | trusted a key k ha hk =>
    have := hE st.identities st'.identities a key (fun b hb => h.2 b (hb.trans ha))
    exact ⟨by simp only [Prog.step, this], h, hk _, fun l' _ => .refl l' st⟩
  | signed id k hk => exact ⟨by simp only [Prog.step, h.4], h, hk _, fun l' _ => .refl l' st⟩
  | preKey id k ho hk => exact ⟨by simp only [Prog.step, h.3 id ho], h, hk _, fun l' _ => .refl l' st⟩
  | eff e d k he hk =>
    rcases apply_same h e with ⟨h1, h2⟩ | ⟨t, t', h1, h2, h3⟩
    · simp only [Prog.step, h1, h2]
      exact ⟨by trivial, h, .done d, fun l' _ => .refl l' st⟩
    · simp only [Prog.step, h1, h2]
      exact ⟨by trivial, h3, hk, fun l' hl => apply_other he hl h1⟩

theorem run_step {α : Type} (E : Env) (p : Prog α) (st : Store) : ((p.step E st).1).run E (p.step E st).2 = p.run E st := by
  cases p with
  | eff e d k => simp only [Prog.step, Prog.run]; cases st.apply e <;> rfl
  | _ => rfl

theorem run_in {α : Type} {E : Env} (hE : LocalTrust lockOf E) {l : L} {p : Prog α} (hp : p.In lockOf owner l) : ∀ {st st' : Store}, SamePart lockOf owner l st st' →
    (p.run E st).1 = (p.run E st').1 ∧ SamePart lockOf owner l (p.run E st).2 (p.run E st').2 ∧ ∀ l', l' ≠ l → SamePart lockOf owner l' (p.run E st).2 st := by
  induction hp with
  | done x => intro st st' h; exact ⟨rfl, h, fun l' _ => .refl l' st⟩
  | contains a k ha hk ih => intro st st' h; simp only [Prog.run, ← h.1 a ha]; exact ih _ h
  | load a k ha hk ih => intro st st' h; simp only [Prog.run, Store.load, ← h.1 a ha]; exact ih _ h
  | trusted a key k ha hk ih =>
    intro st st' h
    simp only [Prog.run, ← hE st.identities st'.identities a key (fun b hb => h.2 b (hb.trans ha))]; exact ih _ h
  | signed id k hk ih => intro st st' h; simp only [Prog.run, ← h.4]; exact ih _ h
  | preKey id k ho hk ih => intro st st' h; simp only [Prog.run, ← h.3 id ho]; exact ih _ h
  | eff e d k he hk ih =>
    intro st st' h
    rcases apply_same h e with ⟨h1, h2⟩ | ⟨t, t', h1, h2, h3⟩
    · simp only [Prog.run, h1, h2]; exact ⟨by trivial, h, fun l' _ => .refl l' st⟩
    · simp only [Prog.run, h1, h2]
      obtain ⟨q1, q2, q3⟩ := ih h3
      exact ⟨q1, q2, fun l' hl => (q3 l' hl).trans (apply_other he hl h1)⟩

theorem effs_in {α : Type} {l : L} (d x : α) {es : List Effect} (h : ∀ e ∈ es, e.In lockOf owner l) : (Prog.effs d x es).In lockOf owner l := by
  induction es with
  | nil => exact .done x
  | cons e es ih => exact .eff e d _ (h e (List.mem_cons_self ..)) (ih fun e' he => h e' (List.mem_cons_of_mem _ he))

/-- The one-time prekey a call names is guarded by the lock held during the call. -/
def Call.Owns (lockOf : Addr → L) (owner : UInt32 → L) : Call → Prop
  | .decryptPreKey a m => ∀ o, m.struct.preKeyId = some o → owner o.value = lockOf a
  | _ => True

theorem buildFromBundle_in (E : Env) (pos : Nat) (a : Addr) (r : Rec) (b : Bundle) (spk : Key32) : ∀ e ∈ (buildFromBundle E pos a r b spk).2.2.2, e.In lockOf owner (lockOf a) := by
  unfold buildFromBundle
  split
  · simp
  · simp
  · simp only
    split
    · simp
    · split
      · simp
      · simp
      · split
        · simp
        · simp
        · split <;> simp [Effect.In]

theorem prog_in {E : Env} {pos : Nat} {c : Call} (hc : c.Owns lockOf owner) : (c.prog E pos).In lockOf owner (lockOf c.addr) := by
  cases c with
  | encrypt a pt =>
    refine .load _ _ rfl fun r => ?_
    cases r with
    | err e => exact .done _
    | panic => exact .done _
    | ok r =>
      refine effs_in _ _ ?_
      unfold encryptRec
      split <;> simp [Effect.In, Call.addr]
  | decrypt a m =>
    refine .contains _ _ rfl fun b => ?_
    cases b with
    | false => exact .done _
    | true =>
      refine .load _ _ rfl fun r => ?_
      cases r with
      | err e => exact .done _
      | panic => exact .done _
      | ok r =>
        refine effs_in _ _ ?_
        unfold decryptRec
        split <;> simp [Effect.In, Call.addr]
  | decryptPreKey a m =>
    have hend : ∀ r pk spk, (decryptPreKeyEnd E pos a m (processV3 E pk spk r m)).In lockOf owner (lockOf a) := by
      intro r pk spk
      have hid := @processV3_id E pk spk r m
      cases hp : processV3 E pk spk r m with
      | mk res r1 =>
        rw [hp] at hid
        cases res with
        | err e => exact .done _
        | panic => exact .done _
        | ok id =>
          refine .eff _ _ _ rfl ?_
          split
          · exact .done _
          · exact .done _
          · refine .eff _ _ _ rfl ?_
            cases id with
            | none => exact .done _
            | some o =>
              simp only
              split
              · exact .done _
              · rename_i ho
                exact .eff _ _ _ (hc o (hid rfl (by simpa using ho))) (.done _)
    refine .load _ _ rfl fun r => ?_
    cases r with
    | err e => exact .done _
    | panic => exact .done _
    | ok r =>
      refine .trusted _ _ _ rfl fun t => ?_
      cases t with
      | false => exact .done _
      | true =>
        simp only
        split
        · exact hend ..
        · refine .signed _ _ fun sp => ?_
          cases sp with
          | none => exact .done _
          | some s =>
            simp only
            cases hpk : m.struct.preKeyId with
            | none => exact hend ..
            | some o => exact .preKey _ _ (hc o hpk) fun kp => hend ..
  | processBundle a b =>
    refine .trusted _ _ _ rfl fun t => ?_
    cases t with
    | false => exact .done _
    | true =>
      simp only
      split
      · exact .done _
      · split
        · exact .done _
        · refine .load _ _ rfl fun r => ?_
          cases r with
          | err e => exact .done _
          | panic => exact .done _
          | ok r => exact effs_in _ _ (buildFromBundle_in E pos a r b _)

/-- A call sees and changes only what its lock guards. -/
theorem call_in {E : Env} (hE : LocalTrust lockOf E) {pos : Nat} {c : Call} (hc : c.Owns lockOf owner) {st st' : Store} (h : SamePart lockOf owner (lockOf c.addr) st st') :
    (st.call E pos c).1 = (st'.call E pos c).1 ∧ (st.call E pos c).2.2 = (st'.call E pos c).2.2 ∧ SamePart lockOf owner (lockOf c.addr) (st.call E pos c).2.1 (st'.call E pos c).2.1 ∧
    ∀ l', l' ≠ lockOf c.addr → SamePart lockOf owner l' (st.call E pos c).2.1 st := by
  have := run_in hE (prog_in (E := E) (pos := pos) hc) h
  simp only [prog_run, Prod.mk.injEq] at this
  exact ⟨this.1.1, this.1.2, this.2⟩

/-! ### Interleavings -/

variable [DecidableEq L]

/-- What holds between the interleaved and the sequential execution. -/
structure Linear (lockOf : Addr → L) (owner : UInt32 → L) (E : Nat → Env) (app : Nat → App) (x : Sys L) (y : Turns) : Prop where
  hist : ∀ i, (x.threads i).hist = y.hist i
  pos : ∀ i, (x.threads i).pos = y.pos i
  /-- a goroutine inside a call holds its lock, and if it went on alone it would get and leave what the call would in the sequential execution -/
  inside : ∀ i c p, (x.threads i).cur = some (c, p) → app i (y.hist i) = some c ∧ x.lock (lockOf c.addr) = some i ∧ p.In lockOf owner (lockOf c.addr) ∧
    (p.run (E i) x.store).1 = ((y.store.call (E i) (y.pos i) c).1, (y.store.call (E i) (y.pos i) c).2.2) ∧
    SamePart lockOf owner (lockOf c.addr) (p.run (E i) x.store).2 (y.store.call (E i) (y.pos i) c).2.1
  /-- what no call holds is as in the sequential execution -/
  free : ∀ l, x.lock l = none → SamePart lockOf owner l x.store y.store
  held : ∀ l i, x.lock l = some i → ∃ c p, (x.threads i).cur = some (c, p) ∧ lockOf c.addr = l

theorem Linear.step {E : Nat → Env} (hE : ∀ i, LocalTrust lockOf (E i)) {app : Nat → App} (happ : ∀ i h c, app i h = some c → c.Owns lockOf owner) {x : Sys L} {y : Turns}
    (h : Linear lockOf owner E app x y) (i : Nat) : Linear lockOf owner E app (x.step lockOf E app i) y ∨ Linear lockOf owner E app (x.step lockOf E app i) (y.step E app i) := by
  unfold Sys.step
  cases hcur : (x.threads i).cur with
  | none =>
    simp only
    cases hc : app i (x.threads i).hist with
    | none => exact .inl h
    | some c =>
      simp only
      split
      · rename_i hfree
        left
        have hfr := h.free _ hfree
        have hci := happ i _ c hc
        refine ⟨fun j => ?_, fun j => ?_, fun j c' p hj => ?_, fun l hl => ?_, fun l j hl => ?_⟩
        · by_cases hji : j = i
          · subst hji; simp only [upd_same]; exact h.hist j
          · simp only [upd_other _ _ hji]; exact h.hist j
        · by_cases hji : j = i
          · subst hji; simp only [upd_same]; exact h.pos j
          · simp only [upd_other _ _ hji]; exact h.pos j
        · by_cases hji : j = i
          · subst hji
            simp only [upd_same, Option.some.injEq, Prod.mk.injEq] at hj
            obtain ⟨rfl, rfl⟩ := hj
            have hk := call_in (hE j) (pos := y.pos j) hci hfr
            refine ⟨by rw [← h.hist j]; exact hc, upd_same .., prog_in hci, ?_, ?_⟩
            · rw [h.pos j]; simp only [prog_run]; rw [hk.1, hk.2.1]
            · rw [h.pos j]; simp only [prog_run]; exact hk.2.2.1
          · simp only [upd_other _ _ hji] at hj
            obtain ⟨q1, q2, q3⟩ := h.inside j c' p hj
            refine ⟨q1, ?_, q3⟩
            have : lockOf c'.addr ≠ lockOf c.addr := fun hx => by rw [hx, hfree] at q2; cases q2
            simp only [upd_other _ _ this]; exact q2
        · by_cases hlc : l = lockOf c.addr
          · subst hlc; simp only [upd_same] at hl; cases hl
          · simp only [upd_other _ _ hlc] at hl; exact h.free l hl
        · by_cases hlc : l = lockOf c.addr
          · subst hlc
            simp only [upd_same, Option.some.injEq] at hl
            subst hl
            refine ⟨c, ?_, ?_, rfl⟩; rotate_left; · simp only [upd_same]; rfl
          · simp only [upd_other _ _ hlc] at hl
            obtain ⟨c', p, h1, h2⟩ := h.held l j hl
            have hji : j ≠ i := fun hx => by rw [hx, hcur] at h1; cases h1
            exact ⟨c', p, by simp only [upd_other _ _ hji]; exact h1, h2⟩
      · exact .inl h
  | some cp =>
    obtain ⟨c, p⟩ := cp
    obtain ⟨happi, hlock, hin, hrun, hsame⟩ := h.inside i c p hcur
    have hother : ∀ j c' p', j ≠ i → (x.threads j).cur = some (c', p') → lockOf c'.addr ≠ lockOf c.addr := by
      intro j c' p' hji hj hx
      have := (h.inside j c' p' hj).2.1
      rw [hx, hlock, Option.some.injEq] at this
      exact hji this.symm
    by_cases hdone : ∃ r, p = .done r
    · -- the call returns
      obtain ⟨⟨ans, pos'⟩, rfl⟩ := hdone
      right
      simp only [Prog.run, Prod.mk.injEq] at hrun hsame
      obtain ⟨ha, hp⟩ := hrun
      have hstep : y.step E app i = ⟨(y.store.call (E i) (y.pos i) c).2.1, upd y.hist i (y.hist i ++ [ans]), upd y.pos i pos'⟩ := by
        simp only [Turns.step, happi, ← ha, ← hp]
      rw [hstep]
      have hci := happ i _ c happi
      have hcall := (call_in (hE i) (pos := y.pos i) hci (SamePart.refl _ y.store)).2.2.2
      refine ⟨fun j => ?_, fun j => ?_, fun j c' p' hj => ?_, fun l hl => ?_, fun l j hl => ?_⟩
      · by_cases hji : j = i
        · subst hji; simp only [upd_same, h.hist j]
        · simp only [upd_other _ _ hji]; exact h.hist j
      · by_cases hji : j = i
        · subst hji; simp only [upd_same]
        · simp only [upd_other _ _ hji]; exact h.pos j
      · by_cases hji : j = i
        · subst hji; simp only [upd_same] at hj; cases hj
        · simp only [upd_other _ _ hji] at hj ⊢
          obtain ⟨q1, q2, q3, q4, q5⟩ := h.inside j c' p' hj
          have hne := hother j c' p' hji hj
          have hk := call_in (hE j) (pos := y.pos j) (happ j _ c' q1) (hcall _ hne)
          refine ⟨q1, by simp only [upd_other _ _ hne]; exact q2, q3, ?_, ?_⟩
          · rw [q4, hk.1, hk.2.1]
          · exact q5.trans hk.2.2.1.symm
      · by_cases hlc : l = lockOf c.addr
        · subst hlc; exact hsame
        · simp only [upd_other _ _ hlc] at hl
          exact (h.free l hl).trans (hcall l hlc).symm
      · by_cases hlc : l = lockOf c.addr
        · subst hlc; simp only [upd_same] at hl; cases hl
        · simp only [upd_other _ _ hlc] at hl
          obtain ⟨c', p', h1, h2⟩ := h.held l j hl
          have hji : j ≠ i := fun hx => by
            rw [hx, hcur] at h1
            simp only [Option.some.injEq, Prod.mk.injEq] at h1
            exact hlc (by rw [← h2, h1.1])
          exact ⟨c', p', by simp only [upd_other _ _ hji]; exact h1, h2⟩
    · -- an access
      left
      obtain ⟨-, -, hin', hframe⟩ := step_in (hE i) hin (SamePart.refl (lockOf := lockOf) (owner := owner) (lockOf c.addr) x.store)
      have hrs := run_step (E i) p x.store
      have key : Linear lockOf owner E app { x with store := (p.step (E i) x.store).2, threads := upd x.threads i { x.threads i with cur := some (c, (p.step (E i) x.store).1) } } y := by
        refine ⟨fun j => ?_, fun j => ?_, fun j c' p' hj => ?_, fun l hl => ?_, fun l j hl => ?_⟩
        · by_cases hji : j = i
          · subst hji; simp only [upd_same]; exact h.hist j
          · simp only [upd_other _ _ hji]; exact h.hist j
        · by_cases hji : j = i
          · subst hji; simp only [upd_same]; exact h.pos j
          · simp only [upd_other _ _ hji]; exact h.pos j
        · by_cases hji : j = i
          · subst hji
            simp only [upd_same, Option.some.injEq, Prod.mk.injEq] at hj
            obtain ⟨rfl, rfl⟩ := hj
            refine ⟨happi, hlock, hin', ?_, ?_⟩
            · simp only [hrs]; exact hrun
            · simp only [hrs]; exact hsame
          · simp only [upd_other _ _ hji] at hj
            obtain ⟨q1, q2, q3, q4, q5⟩ := h.inside j c' p' hj
            have hk := run_in (hE j) q3 (hframe _ (hother j c' p' hji hj))
            exact ⟨q1, q2, q3, hk.1.trans q4, hk.2.1.trans q5⟩
        · have hne : l ≠ lockOf c.addr := fun hx => by rw [hx] at hl; simp only [hlock] at hl; cases hl
          exact (hframe l hne).trans (h.free l hl)
        · obtain ⟨c', p', h1, h2⟩ := h.held l j hl
          by_cases hji : j = i
          · subst hji
            rw [hcur] at h1
            simp only [Option.some.injEq, Prod.mk.injEq] at h1
            refine ⟨c, ?_, ?_, by rw [h1.1]; exact h2⟩; rotate_left; · simp only [upd_same]; rfl
          · exact ⟨c', p', by simp only [upd_other _ _ hji]; exact h1, h2⟩
      cases p with
      | done r => exact absurd ⟨r, rfl⟩ hdone
      | _ => exact key

/-- **C80 (any locks).** Goroutines call the session API on shared stores at the same time; `lockOf a` is the lock held during a call for address `a`.  Every one-time prekey is guarded by one lock
(prekey messages for addresses with different locks name different one-time prekeys), and trust in a key for an address depends only on keys stored for addresses with the same lock.
Then for every schedule there is an order in which the same goroutines could have made their calls one after the other with every goroutine getting the same answers, and, whenever no
call is under way, the same stored data.  The order is a part of the schedule: every call can be taken to happen when it returns, so a call that returned before another began comes
first. -/
theorem C80_locks (lockOf : Addr → L) (owner : UInt32 → L) (E : Nat → Env) (hE : ∀ i, LocalTrust lockOf (E i)) (app : Nat → App)
    (howns : ∀ i h a m o, app i h = some (.decryptPreKey a m) → m.struct.preKeyId = some o → owner o.value = lockOf a) (st : Store) (pos : Nat → Nat) (sched : List Nat) :
    ∃ order : List Nat, order.Sublist sched ∧
      let x := (Sys.init st pos).run lockOf E app sched
      let y := Turns.run E app ⟨st, fun _ => [], pos⟩ order
      (∀ i, (x.threads i).hist = y.hist i) ∧ ((∀ i, (x.threads i).cur = none) → x.store = y.store) := by
  have happ : ∀ i h c, app i h = some c → c.Owns lockOf owner := by
    intro i h c hc
    cases c with
    | decryptPreKey a m => exact fun o ho => howns i h a m o hc ho
    | _ => trivial
  have key : ∀ (sched : List Nat) (x : Sys L) (y : Turns), Linear lockOf owner E app x y →
      ∃ order : List Nat, order.Sublist sched ∧ Linear lockOf owner E app (x.run lockOf E app sched) (y.run E app order) := by
    intro sched
    induction sched with
    | nil => intro x y h; exact ⟨[], .slnil, h⟩
    | cons i sched ih =>
      intro x y h
      rcases h.step hE happ i with h1 | h1
      · obtain ⟨order, h2, h3⟩ := ih _ _ h1
        exact ⟨order, .cons _ h2, h3⟩
      · obtain ⟨order, h2, h3⟩ := ih _ _ h1
        exact ⟨i :: order, .cons_cons _ h2, h3⟩
  have hinit : Linear lockOf owner E app (Sys.init st pos) ⟨st, fun _ => [], pos⟩ :=
    ⟨fun _ => rfl, fun _ => rfl, fun i c p h => (by cases h), fun l _ => .refl l st, fun l i h => (by cases h)⟩
  obtain ⟨order, hsub, h⟩ := key sched _ _ hinit
  refine ⟨order, hsub, h.hist, fun hidle => ?_⟩
  have hfree : ∀ l, SamePart lockOf owner l ((Sys.init st pos).run lockOf E app sched).store (Turns.run E app ⟨st, fun _ => [], pos⟩ order).store := by
    intro l
    refine h.free l ?_
    cases hl : ((Sys.init st pos).run lockOf E app sched).lock l with
    | none => rfl
    | some i =>
      obtain ⟨c, p, h1, -⟩ := h.held l i hl
      rw [hidle i] at h1; cases h1
  generalize ((Sys.init st pos).run lockOf E app sched).store = s1 at hfree
  generalize (Turns.run E app ⟨st, fun _ => [], pos⟩ order).store = s2 at hfree
  obtain ⟨a1, a2, a3, a4⟩ := s1
  obtain ⟨b1, b2, b3, b4⟩ := s2
  have e1 : a1 = b1 := funext fun a => (hfree (lockOf a)).1 a rfl
  have e2 : a2 = b2 := funext fun a => (hfree (lockOf a)).2 a rfl
  have e3 : a3 = b3 := funext fun id => (hfree (owner id)).3 id rfl
  have e4 : a4 = b4 := (hfree (owner 0)).4
  rw [e1, e2, e3, e4]
end

/-- **C80 (one lock).** With a single lock around every call there are no conditions. -/
theorem C80_one_lock (E : Nat → Env) (app : Nat → App) (st : Store) (pos : Nat → Nat) (sched : List Nat) :
    ∃ order : List Nat, order.Sublist sched ∧
      let x := (Sys.init st pos).run (fun _ => ()) E app sched
      let y := Turns.run E app ⟨st, fun _ => [], pos⟩ order
      (∀ i, (x.threads i).hist = y.hist i) ∧ ((∀ i, (x.threads i).cur = none) → x.store = y.store) :=
  C80_locks (fun _ => ()) (fun _ => ()) E (fun _ ids ids' a k h => by rw [show ids = ids' from funext fun b => h b rfl]) app (fun _ _ _ _ _ _ _ => rfl) st pos sched

/-- **C80 (a lock per peer).** -/
theorem C80_lock_per_peer (owner : UInt32 → Addr) (E : Nat → Env) (htrust : ∀ i ids ids' a k, ids a = ids' a → (E i).trusted ids a k = (E i).trusted ids' a k) (app : Nat → App)
    (howns : ∀ i h a m o, app i h = some (.decryptPreKey a m) → m.struct.preKeyId = some o → owner o.value = a) (st : Store) (pos : Nat → Nat) (sched : List Nat) :
    ∃ order : List Nat, order.Sublist sched ∧
      let x := (Sys.init st pos).run id E app sched
      let y := Turns.run E app ⟨st, fun _ => [], pos⟩ order
      (∀ i, (x.threads i).hist = y.hist i) ∧ ((∀ i, (x.threads i).cur = none) → x.store = y.store) :=
  C80_locks id owner E (fun i ids ids' a k h => htrust i ids ids' a k (h a rfl)) app howns st pos sched

section
open Toy

/-- The text an answer carries. -/
def Answer.text : Answer → Option Bytes
  | .decrypted (.ok x) => some x.1
  | .encrypted (.ok (.signal m)) => m.struct.cipherText
  | .encrypted (.ok (.preKey m)) => m.message.struct.cipherText
  | _ => none

/-- Two goroutines of Bob's: one reads Alice's first message and answers, the other reads Carol's and answers. -/
def twoApp (toCarol : PreKeyMsg) (i : Nat) : App := fun hist =>
  match i, hist.length with
  | 0, 0 => some (.decryptPreKey alice msg1)
  | 0, 1 => some (.encrypt alice [1])
  | 1, 0 => some (.decryptPreKey carol toCarol)
  | 1, 1 => some (.encrypt carol [2])
  | _, _ => none

/-- Bob with two one-time prekeys. -/
def bobTwo : Store := { bobStore with preKeys := upd bobStore.preKeys 10 (some oneTime2) }

/-- Strictly alternating goroutines. -/
def alternate : Nat → List Nat
  | 0 => []
  | n + 1 => 0 :: 1 :: alternate n

set_option maxRecDepth 100000 in
/-- Non-vacuity of C80: the two goroutines run at the same time with a lock per peer; all four calls return. -/
example : (∃ order, order.Sublist (alternate 20) ∧ ∀ i, (((Sys.init bobTwo (fun _ => 0)).run id (fun i => if i = 0 then bobEnv else bobW) (twoApp carolMsg) (alternate 20)).threads i).hist =
      (Turns.run (fun i => if i = 0 then bobEnv else bobW) (twoApp carolMsg) ⟨bobTwo, fun _ => [], fun _ => 0⟩ order).hist i) ∧
    ((((Sys.init bobTwo (fun _ => 0)).run id (fun i => if i = 0 then bobEnv else bobW) (twoApp carolMsg) (alternate 20)).threads 0).hist.map (·.text.isSome)) = [true, true] ∧
    ((((Sys.init bobTwo (fun _ => 0)).run id (fun i => if i = 0 then bobEnv else bobW) (twoApp carolMsg) (alternate 20)).threads 1).hist.map (·.text)).head? = some (some [77]) := by
  refine ⟨?_, by decide +kernel, by decide +kernel⟩
  have hid1 : msg1.struct.preKeyId = some (OptU32.new 9) := by decide +kernel
  have hid2 : carolMsg.struct.preKeyId = some (OptU32.new 10) := by decide +kernel
  have htr : ∀ (i : Nat) (ids ids' : Addr → Option Key32) (a : Addr) (k : Key32), ids a = ids' a →
      (if i = 0 then bobEnv else bobW).trusted ids a k = (if i = 0 then bobEnv else bobW).trusted ids' a k := by
    intro i ids ids' a k h
    have ht : ∀ ids : Addr → Option Key32, (if i = 0 then bobEnv else bobW).trusted ids a k = (match ids a with | none => true | some k' => k' == k) := by intro ids; split <;> rfl
    rw [ht, ht, h]
  have hown : ∀ (i : Nat) (h : List Answer) (a : Addr) (m : PreKeyMsg) (o : OptU32), twoApp carolMsg i h = some (.decryptPreKey a m) → m.struct.preKeyId = some o →
      (if o.value = 9 then alice else carol) = a := by
    intro i h a m o hc ho
    unfold twoApp at hc
    split at hc <;> simp only [Option.some.injEq, Call.decryptPreKey.injEq, reduceCtorEq] at hc
    · obtain ⟨rfl, rfl⟩ := hc
      rw [hid1, Option.some.injEq] at ho; subst ho; rfl
    · obtain ⟨rfl, rfl⟩ := hc
      rw [hid2, Option.some.injEq] at ho; subst ho; rfl
  obtain ⟨order, h1, h2, -⟩ := C80_lock_per_peer (fun id => if id = 9 then alice else carol) (fun i => if i = 0 then bobEnv else bobW) htr (twoApp carolMsg) hown bobTwo (fun _ => 0) (alternate 20)
  exact ⟨order, h1, h2⟩

/-- Each of two goroutines makes one call. -/
def onceApp (c0 c1 : Call) (i : Nat) : App := fun hist =>
  match i, hist with
  | 0, [] => some c0
  | 1, [] => some c1
  | _, _ => none

theorem once_orders (E : Nat → Env) (c0 c1 : Call) (y0 : Turns) (h0 : y0.hist = fun _ => []) (order : List Nat) :
    let app := onceApp c0 c1
    let y := y0.run E app order
    y = y0 ∨ y = y0.step E app 0 ∨ y = y0.step E app 1 ∨ y = (y0.step E app 0).step E app 1 ∨ y = (y0.step E app 1).step E app 0 := by
  intro app
  have e0 : app 0 [] = some c0 := rfl
  have e1 : app 1 [] = some c1 := rfl
  have en : ∀ (i : Nat) (h : List Answer), h ≠ [] ∨ (i ≠ 0 ∧ i ≠ 1) → app i h = none := by
    intro i h hh
    show onceApp c0 c1 i h = none
    unfold onceApp
    split
    · rcases hh with hh | hh <;> simp at hh
    · rcases hh with hh | hh <;> simp at hh
    · rfl
  have hskip : ∀ (y : Turns) (i : Nat), y.hist i ≠ [] ∨ (i ≠ 0 ∧ i ≠ 1) → y.step E app i = y := by
    intro y i h; simp only [Turns.step, en i _ h]
  have ha : ∀ (y : Turns), y.hist 0 = [] → (y.step E app 0).hist 0 ≠ [] := by
    intro y h; simp [Turns.step, h, e0, upd]
  have hb : ∀ (y : Turns), y.hist 1 = [] → (y.step E app 1).hist 1 ≠ [] := by
    intro y h; simp [Turns.step, h, e1, upd]
  have ha1 : ∀ (y : Turns), (y.step E app 0).hist 1 = y.hist 1 := by
    intro y; simp only [Turns.step]; split <;> simp [upd]
  have hb0 : ∀ (y : Turns), (y.step E app 1).hist 0 = y.hist 0 := by
    intro y; simp only [Turns.step]; split <;> simp [upd]
  have n00 : y0.hist 0 = [] := by rw [h0]
  have n01 : y0.hist 1 = [] := by rw [h0]
  have n1 : (y0.step E app 0).hist 1 = [] := (ha1 _).trans n01
  have n0 : (y0.step E app 1).hist 0 = [] := (hb0 _).trans n00
  have key : ∀ (order : List Nat) (y : Turns),
      (y = y0 ∨ y = y0.step E app 0 ∨ y = y0.step E app 1 ∨ y = (y0.step E app 0).step E app 1 ∨ y = (y0.step E app 1).step E app 0) →
      (y.run E app order = y0 ∨ y.run E app order = y0.step E app 0 ∨ y.run E app order = y0.step E app 1 ∨ y.run E app order = (y0.step E app 0).step E app 1 ∨
        y.run E app order = (y0.step E app 1).step E app 0) := by
    intro order
    induction order with
    | nil => intro y h; exact h
    | cons i order ih =>
      intro y h
      refine ih (y.step E app i) ?_
      by_cases hi : i ≠ 0 ∧ i ≠ 1
      · rw [hskip y i (.inr hi)]; exact h
      · have hi' : i = 0 ∨ i = 1 := by omega
        rcases hi' with rfl | rfl
        · rcases h with rfl | rfl | rfl | rfl | rfl
          · exact .inr (.inl rfl)
          · exact .inr (.inl (hskip _ 0 (.inl (ha _ n00))))
          · exact .inr (.inr (.inr (.inr rfl)))
          · exact .inr (.inr (.inr (.inl (hskip _ 0 (.inl (by rw [hb0]; exact ha _ n00))))))
          · exact .inr (.inr (.inr (.inr (hskip _ 0 (.inl (ha _ n0))))))
        · rcases h with rfl | rfl | rfl | rfl | rfl
          · exact .inr (.inr (.inl rfl))
          · exact .inr (.inr (.inr (.inl rfl)))
          · exact .inr (.inr (.inl (hskip _ 1 (.inl (hb _ n01)))))
          · exact .inr (.inr (.inr (.inl (hskip _ 1 (.inl (hb _ n1))))))
          · exact .inr (.inr (.inr (.inr (hskip _ 1 (.inl (by rw [ha1]; exact hb _ n01))))))
  exact key order y0 (.inl rfl)

set_option maxRecDepth 100000 in
/-- **C80 fails for a lock per peer when two peers got the same one-time prekey:** two goroutines read the first messages of two peers, both succeed, and in no order of the two calls
would both have succeeded.  A one-time prekey is used twice. -/
theorem C80_shared_prekey_needed : ∃ (E : Nat → Env) (a0 a1 : Addr) (m0 m1 : PreKeyMsg) (st : Store) (sched : List Nat), a0 ≠ a1 ∧
    ∀ order : List Nat, ∃ i, (((Sys.init st (fun _ => 0)).run id E (onceApp (.decryptPreKey a0 m0) (.decryptPreKey a1 m1)) sched).threads i).hist ≠
      (Turns.run E (onceApp (.decryptPreKey a0 m0) (.decryptPreKey a1 m1)) ⟨st, fun _ => [], fun _ => 0⟩ order).hist i := by
  refine ⟨fun i => if i = 0 then bobEnv else bobW, alice, carol, msg1, carolSame, bobStore, alternate 12, by decide, fun order => ?_⟩
  have hx0 : ((((Sys.init bobStore (fun _ => 0)).run id (fun i => if i = 0 then bobEnv else bobW) (onceApp (.decryptPreKey alice msg1) (.decryptPreKey carol carolSame))
      (alternate 12)).threads 0).hist.map (·.text)) = [some [104, 105]] := by decide +kernel
  have hx1 : ((((Sys.init bobStore (fun _ => 0)).run id (fun i => if i = 0 then bobEnv else bobW) (onceApp (.decryptPreKey alice msg1) (.decryptPreKey carol carolSame))
      (alternate 12)).threads 1).hist.map (·.text)) = [some [77]] := by decide +kernel
  by_cases he0 : (((Sys.init bobStore (fun _ => 0)).run id (fun i => if i = 0 then bobEnv else bobW) (onceApp (.decryptPreKey alice msg1) (.decryptPreKey carol carolSame))
      (alternate 12)).threads 0).hist =
      (Turns.run (fun i => if i = 0 then bobEnv else bobW) (onceApp (.decryptPreKey alice msg1) (.decryptPreKey carol carolSame)) ⟨bobStore, fun _ => [], fun _ => 0⟩ order).hist 0
  · refine ⟨1, fun he1 => ?_⟩
    rw [he0] at hx0
    rw [he1] at hx1
    clear he0 he1
    have hor := once_orders (fun i => if i = 0 then bobEnv else bobW) (.decryptPreKey alice msg1) (.decryptPreKey carol carolSame) ⟨bobStore, fun _ => [], fun _ => 0⟩ rfl order
    simp only at hor
    generalize Turns.run (fun i => if i = 0 then bobEnv else bobW) (onceApp (.decryptPreKey alice msg1) (.decryptPreKey carol carolSame)) ⟨bobStore, fun _ => [], fun _ => 0⟩ order = y
      at hx0 hx1 hor
    rcases hor with rfl | rfl | rfl | rfl | rfl
    · simp at hx0
    · revert hx1; decide +kernel
    · revert hx0; decide +kernel
    · revert hx1; decide +kernel
    · revert hx0; decide +kernel
  · exact ⟨0, he0⟩
end

end Verif
