import Verif.Model.Concurrent
import Verif.Props.PreKeyWrap
/-
C41: concurrent Encrypt calls on one session.
-/
set_option linter.unusedSimpArgs false
namespace Verif

@[simp] theorem upd_same {α β : Type} [DecidableEq α] (f : α → β) (a : α) (b : β) : upd f a b a = b := by simp [upd]
theorem upd_other {α β : Type} [DecidableEq α] (f : α → β) {a x : α} (b : β) (h : x ≠ a) : upd f a b x = f x := by simp [upd, h]

/-- **C41 is false of the code.** For every session that can encrypt, and any two plaintexts, there is an interleaving of two Encrypt
calls in which both return a message and the two messages have the same sender ratchet key and counter and are encrypted with
the same message keys. -/
theorem C41_concurrent_false (E : Env) (hS : StdSM E.S) (st : Store) (a : Addr) (s : SState) (ps : List SState) (h : Ready st a s ps)
    (sc : Chain) (hsc : s.senderChain = some sc) (pt1 pt2 : Bytes) (h1 : pt1.length < 2 ^ 63) (h2 : pt2.length < 2 ^ 63) :
    ∃ (sched : List Nat) (m1 m2 : CipherMsg) (body1 body2 : Bytes),
      ((EncSys.init st (fun i => if i = 0 then [pt1] else if i = 1 then [pt2] else [])).run E a false sched).out = [(0, m1), (1, m2)] ∧
      m1.inner.senderRatchetKey = m2.inner.senderRatchetKey ∧ m1.inner.struct.counter = m2.inner.struct.counter ∧
      encryptBody E.C (sc.chainKey.msgKeys E.C) pt1 = .ok body1 ∧ m1.inner.struct.cipherText = some body1 ∧
      encryptBody E.C (sc.chainKey.msgKeys E.C) pt2 = .ok body2 ∧ m2.inner.struct.cipherText = some body2 := by
  obtain ⟨m1, r1, str1, e1, t1, -, s1, p1⟩ := h.encrypt hS pt1 h1
  obtain ⟨m2, r2, str2, e2, t2, -, s2, p2⟩ := h.encrypt hS pt2 h2
  obtain ⟨sc1, b1, hsc1, hb1, -, -, hc1, -, hk1, ht1, -⟩ := encryptState_inner hS h.version h1 e1
  obtain ⟨sc2, b2, hsc2, hb2, -, -, hc2, -, hk2, ht2, -⟩ := encryptState_inner hS h.version h2 e2
  rw [hsc] at hsc1 hsc2; cases hsc1; cases hsc2
  obtain ⟨str, hstr⟩ := toStruct_of_init (r := (Rec.ofStates s ps).set (Rec.ofStates s ps).cur (s.advance E.C)) (by
    rw [(ofStates_set_cur s (s.advance E.C) ps).1, (ofStates_set_cur s (s.advance E.C) ps).2]
    intro x hx
    rcases List.mem_cons.1 hx with rfl | hx
    · exact SState.advance_initialised _ h.init
    · exact h.inits x hx)
  refine ⟨[0, 1, 0, 1, 0, 1], m1, m2, b1, b2, ?_, by rw [hk1, hk2], by rw [hc1, hc2], hb1, ht1, hb2, ht2⟩
  simp [EncSys.run, EncSys.step, EncSys.init, h.load, ofStates_state, e1, e2, Store.apply, hstr, upd_other]

/-- The state `n` messages later. -/
def SState.sent (C : Crypto) (s : SState) (sc : Chain) (n : Nat) : SState :=
  { s with senderChain := some { sc with chainKey := sc.chainKey.iter C n } }

theorem SState.sent_advance (C : Crypto) (s : SState) (sc : Chain) (n : Nat) : (s.sent C sc n).advance C = s.sent C sc (n + 1) := by
  simp only [SState.advance, SState.sent, Option.map_some]
  congr 2

/-- The invariant under mutual exclusion. -/
structure MutexInv (E : Env) (a : Addr) (s : SState) (sc : Chain) (ps : List SState) (x : EncSys) : Prop where
  ready : Ready x.store a (s.sent E.C sc x.out.length) ps
  todo : ∀ i, (∀ pt ∈ (x.threads i).todo, pt.length < 2 ^ 63)
  idle : ∀ i, x.lock ≠ some i → (x.threads i).pc = .idle
  loaded : ∀ i pt r, (x.threads i).pc = .loaded pt r → pt.length < 2 ^ 63 ∧ r = Rec.ofStates (s.sent E.C sc x.out.length) ps
  saved : ∀ i cm r, (x.threads i).pc = .saved cm r →
    cm.inner.senderRatchetKey = sc.pair.pub ∧ cm.inner.struct.counter = sc.chainKey.index + UInt32.ofNat x.out.length ∧
    ∃ str, r.toStruct = .ok str ∧ r.state = s.sent E.C sc (x.out.length + 1) ∧ r.prevStates = ps
  out : ∀ n i cm, x.out[n]? = some (i, cm) →
    cm.inner.senderRatchetKey = sc.pair.pub ∧ cm.inner.struct.counter = sc.chainKey.index + UInt32.ofNat n

theorem MutexInv.step {E : Env} (hS : StdSM E.S) {a : Addr} {s : SState} {sc : Chain} {ps : List SState} {x : EncSys}
    (h : MutexInv E a s sc ps x) (i : Nat) : MutexInv E a s sc ps (x.step E a true i) := by
  unfold EncSys.step
  by_cases hb : (true && (x.lock.isSome && x.lock != some i)) = true
  · rw [if_pos hb]; exact h
  · rw [if_neg hb]
    have hlock : x.lock = none ∨ x.lock = some i := by
      cases hl : x.lock with
      | none => exact .inl rfl
      | some j =>
        rw [hl] at hb
        simp only [Option.isSome_some, Bool.true_and, bne_iff_ne, ne_eq, Decidable.not_not] at hb
        exact .inr hb
    have hother : ∀ j, j ≠ i → (x.threads j).pc = .idle := by
      intro j hj
      apply h.idle
      rcases hlock with hl | hl <;> rw [hl] <;> simp
      exact fun e => hj e.symm
    cases ht : x.threads i with
    | mk pc todo =>
      have htodo : ∀ pt ∈ todo, pt.length < 2 ^ 63 := by
        have := h.todo i; rw [ht] at this; exact this
      -- the frame for goroutines after one of them went back to idle with the lock released, nothing else changed
      cases pc with
      | idle =>
        cases todo with
        | nil => exact h
        | cons pt todo =>
          simp only [h.ready.load]
          refine ⟨h.ready, ?_, ?_, ?_, ?_, h.out⟩
          · intro j
            by_cases hj : j = i
            · subst hj; simp only [upd_same]; exact fun p hp => htodo p (List.mem_cons_of_mem _ hp)
            · simp only [upd_other _ _ hj]; exact h.todo j
          · intro j hj
            have hj : j ≠ i := fun e => hj (by rw [e])
            simp only [upd_other _ _ hj]; exact hother j hj
          · intro j pt' r hj
            by_cases hji : j = i
            · subst hji
              simp only [upd_same, EncPc.loaded.injEq] at hj
              obtain ⟨rfl, rfl⟩ := hj
              exact ⟨htodo _ List.mem_cons_self, rfl⟩
            · simp only [upd_other _ _ hji, hother j hji] at hj; simp at hj
          · intro j cm r hj
            by_cases hji : j = i
            · subst hji; simp at hj
            · simp only [upd_other _ _ hji, hother j hji] at hj; simp at hj
      | loaded pt r =>
        obtain ⟨hpt, hr⟩ := h.loaded i pt r (by rw [ht])
        subst hr
        obtain ⟨cm, r, str, he, -, -, -, -⟩ := h.ready.encrypt hS pt hpt
        obtain ⟨sc', body, hsc', -, -, -, hctr, -, hrk, -, -⟩ := encryptState_inner hS h.ready.version hpt he
        simp only [SState.sent, Option.some.injEq] at hsc'
        subst hsc'
        simp only [ofStates_state, he]
        refine ⟨h.ready.saveIdentity _, ?_, ?_, ?_, ?_, h.out⟩
        · intro j
          by_cases hj : j = i
          · subst hj; simp only [upd_same]; exact htodo
          · simp only [upd_other _ _ hj]; exact h.todo j
        · intro j hj
          by_cases hji : j = i
          · subst hji
            exact absurd (h.idle j hj) (by rw [ht]; simp)
          · simp only [upd_other _ _ hji]; exact hother j hji
        · intro j pt' r' hj
          by_cases hji : j = i
          · subst hji; simp at hj
          · simp only [upd_other _ _ hji, hother j hji] at hj; simp at hj
        · intro j cm' r' hj
          by_cases hji : j = i
          · subst hji
            simp only [upd_same, EncPc.saved.injEq] at hj
            obtain ⟨rfl, rfl⟩ := hj
            have hset := ofStates_set_cur (s.sent E.C sc x.out.length) ((s.sent E.C sc x.out.length).advance E.C) ps
            obtain ⟨str, hstr⟩ := toStruct_of_init (r := (Rec.ofStates (s.sent E.C sc x.out.length) ps).set
                (Rec.ofStates (s.sent E.C sc x.out.length) ps).cur ((s.sent E.C sc x.out.length).advance E.C)) (by
              rw [hset.1, hset.2]
              intro y hy
              rcases List.mem_cons.1 hy with rfl | hy
              · exact SState.advance_initialised _ h.ready.init
              · exact h.ready.inits y hy)
            refine ⟨hrk, ?_, str, hstr, ?_, hset.2⟩
            · rw [hctr]; exact ChainKey.iter_index _ _ _
            · rw [hset.1, SState.sent_advance]
          · simp only [upd_other _ _ hji, hother j hji] at hj; simp at hj
      | saved cm r =>
        obtain ⟨hrk, hctr, str, hstr, hrs, hrp⟩ := h.saved i cm r (by rw [ht])
        simp only [Store.apply, hstr]
        have hinit : (s.sent E.C sc (x.out.length + 1)).Initialised := by
          rw [← SState.sent_advance]; exact SState.advance_initialised _ h.ready.init
        refine ⟨?_, ?_, ?_, ?_, ?_, ?_⟩
        · simp only [List.length_append, List.length_cons, List.length_nil, Nat.zero_add]
          exact h.ready.stored hstr hrs hrp hinit h.ready.version x.store.identities
        · intro j
          by_cases hj : j = i
          · subst hj; simp only [upd_same]; exact htodo
          · simp only [upd_other _ _ hj]; exact h.todo j
        · intro j _
          by_cases hji : j = i
          · subst hji; simp
          · simp only [upd_other _ _ hji]; exact hother j hji
        · intro j pt' r' hj
          by_cases hji : j = i
          · subst hji; simp at hj
          · simp only [upd_other _ _ hji, hother j hji] at hj; simp at hj
        · intro j pt' r' hj
          by_cases hji : j = i
          · subst hji; simp at hj
          · simp only [upd_other _ _ hji, hother j hji] at hj; simp at hj
        · intro n j cm' hn
          simp only [List.getElem?_append] at hn
          split at hn
          · exact h.out n j cm' hn
          · rename_i hlt
            have h0 : n - x.out.length = 0 := by
              apply Decidable.by_contra
              intro hne
              rw [List.getElem?_eq_none (by simp; omega)] at hn
              simp at hn
            rw [h0] at hn
            simp only [List.getElem?_cons_zero, Option.some.injEq, Prod.mk.injEq] at hn
            obtain ⟨-, rfl⟩ := hn
            have : n = x.out.length := by omega
            rw [this]
            exact ⟨hrk, hctr⟩

/-- **C41 (partial: under mutual exclusion).** If the application holds one lock per Encrypt call, then for any number of goroutines
sending any plaintexts, under every schedule, all messages returned so far carry the sending chain's ratchet key and pairwise
different counters: the n-th one returned has the chain's counter plus n.
Missing: the library itself takes no lock, and without one the property is false (C41_concurrent_false). -/
theorem C41_with_mutex_partial (E : Env) (hS : StdSM E.S) (st : Store) (a : Addr) (s : SState) (ps : List SState) (h : Ready st a s ps)
    (sc : Chain) (hsc : s.senderChain = some sc) (todo : Nat → List Bytes) (ht : ∀ i, ∀ pt ∈ todo i, pt.length < 2 ^ 63) (sched : List Nat) :
    let out := ((EncSys.init st todo).run E a true sched).out
    (∀ (n i : Nat) (m : CipherMsg), out[n]? = some (i, m) → m.inner.senderRatchetKey = sc.pair.pub ∧
        m.inner.struct.counter = sc.chainKey.index + UInt32.ofNat n) ∧
    (out.length < 2 ^ 32 → ∀ (n n' i i' : Nat) (m m' : CipherMsg), n < n' → out[n]? = some (i, m) → out[n']? = some (i', m') →
        m.inner.struct.counter ≠ m'.inner.struct.counter) := by
  have hinit : MutexInv E a s sc ps (EncSys.init st todo) := by
    have hs0 : s.sent E.C sc 0 = s := by
      unfold SState.sent
      simp only [ChainKey.iter]
      rw [← hsc]
    refine ⟨?_, ht, fun _ _ => rfl, ?_, ?_, ?_⟩
    · show Ready st a (s.sent E.C sc 0) ps
      rw [hs0]; exact h
    · intro i pt r hr; simp [EncSys.init] at hr
    · intro i pt r hr; simp [EncSys.init] at hr
    · intro n i cm hn; simp [EncSys.init] at hn
  have hinv : ∀ (sched : List Nat) (x : EncSys), MutexInv E a s sc ps x → MutexInv E a s sc ps (x.run E a true sched) := by
    intro sched
    induction sched with
    | nil => intro x hx; exact hx
    | cons i sched ih => intro x hx; exact ih _ (hx.step hS i)
  have hout := (hinv sched _ hinit).out
  refine ⟨hout, ?_⟩
  intro hlen n n' i i' m m' hlt hm hm' he
  rw [(hout n i m hm).2, (hout n' i' m' hm').2] at he
  have hn' : n' < 2 ^ 32 := Nat.lt_trans (List.getElem?_eq_some_iff.1 hm').1 hlen
  have := congrArg UInt32.toNat he
  simp only [UInt32.toNat_add, UInt32.toNat_ofNat'] at this
  have := sc.chainKey.index.toNat_lt
  omega

section
open Toy
set_option maxRecDepth 100000
/-- Non-vacuity: three goroutines, an interleaved schedule; all four calls return, with and without the lock. -/
def demoTodo : Nat → List Bytes := fun i => if i = 0 then [[1], [2]] else if i = 1 then [[3]] else if i = 2 then [[4]] else []
example : ((EncSys.init alice1 demoTodo).run aliceEnv bob true [0, 1, 0, 1, 0, 1, 2, 1, 0, 1, 2, 2, 2, 0, 0, 0]).out.map
    (fun x => (x.1, x.2.inner.struct.counter)) = [(0, 0), (1, 1), (2, 2), (0, 3)] := by decide +kernel
example : ((EncSys.init alice1 demoTodo).run aliceEnv bob false [0, 1, 0, 1, 0, 1, 2, 2, 2, 0, 0, 0]).out.map
    (fun x => (x.1, x.2.inner.struct.counter)) = [(0, 0), (1, 0), (2, 1), (0, 2)] := by decide +kernel
/-- The hypotheses of the C41 theorems hold for Alice's new session. -/
example : Ready alice1 bob (stateOf alice1 bob) [] ∧ (stateOf alice1 bob).senderChain.isSome := ⟨toy_ready, by decide +kernel⟩
end

end Verif
