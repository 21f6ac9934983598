import Verif.Props.Reuse
/-
C101: while a user keeps a session, no message key is used twice, for sending or receiving; a message is accepted at most once.
-/
set_option linter.unusedSimpArgs false
namespace Verif.Sym

/-- In a run from independent secrets no two uses share a key. -/
theorem run_once {U : Bytes → Prop} {s s' : State} {es : List Use} (h : Run U s s' es) (ha : Anti s.secrets) :
    es.Pairwise fun u v => ∀ x ∈ u.keys.list, x ∉ v.keys.list := by
  induction h with
  | refl => exact .nil
  | @step s' s'' e es hr hs ih =>
    have h0 : Anti (s.secrets ++ []) := by simpa using ha
    have h1 := run_safe hr [] h0
    have h2 := step_safe hs [] h1.anti
    refine List.pairwise_append.2 ⟨ih, ?_, fun u hu v hv x hx hx' => ?_⟩
    · cases e <;> simp
    · obtain ⟨t, ht, hab⟩ := (h2.dead x (List.mem_flatMap.2 ⟨v, hv, hx'⟩)).2
      exact (h1.dead x (List.mem_flatMap.2 ⟨u, hu, hx⟩)).1 t ht hab

end Verif.Sym

namespace Verif
open Schedule Sym

/-! ### What is claimed -/

/-- What an answered call means for the session: a message was sent or received. -/
def Call.event : Call → Answer → Option Event
  | .encrypt _ pt, .encrypted (.ok cm) => some (.sent pt cm)
  | .decrypt _ m, .decrypted (.ok (pt, k)) => some (.received m pt k)
  | .decryptPreKey _ p, .decrypted (.ok (pt, k)) => some (.received p.message pt k)
  | _, _ => none

/-- After `pre`, the user sent or received a message under the address `a`. -/
def User.Uses (u : User) (pre : List Deed) (a : Addr) (e : Event) : Prop := ∃ c ans, u.Did pre c ans ∧ c.addr = a ∧ c.event ans = some e

/-- Doing this, the user keeps its current session with `a`: it does not delete it or set up another (a prekey message under `a` is one of a session that it has), and no message is
decrypted with an archived session. -/
def Node.Keeps (E : Env) (n : Node) (a : Addr) (x : Errand) : Prop :=
  x ≠ .deleteSession a ∧ (∀ b, x ≠ .call (.processBundle a b)) ∧ (∀ m r, x = .call (.decryptPreKey a m) → n.st.load a = .ok r → Verif.Knows r m) ∧ n.ByCurrent E x

/-- In the life of the user, everything after what it does after `pre1`, up to and including what it does after `pre2`, keeps its session with `a`. -/
def User.Keeps (u : User) (pre1 pre2 : List Deed) (a : Addr) : Prop :=
  ∀ pre d post, u.life = pre ++ d :: post → pre1.length < pre.length → pre.length ≤ pre2.length → (u.start.deeds u.env pre).Keeps u.env a d.what

/-! ### Proofs -/

/-- One step of a session. -/
def Stepped (E : Env) (s : SState) : Event → SState → Prop
  | .sent pt cm, s' => encryptState E s pt = (.ok cm, s')
  | .received m pt k, s' => ∃ d b, decryptWithState E d s m = (.ok (pt, k), s', b)

theorem Stepped.history {E : Env} {s0 s s' : SState} {e : Event} {evs : List Event} (h : Stepped E s e s') (hh : History E s0 s evs) : History E s0 s' (evs ++ [e]) := by
  cases e with
  | sent pt cm => exact hh.sent h
  | received m pt k => obtain ⟨d, b, h⟩ := h; exact hh.received h

theorem History.trans {E : Env} {s0 s1 s2 : SState} {l1 l2 : List Event} (h1 : History E s0 s1 l1) (h2 : History E s1 s2 l2) : History E s0 s2 (l1 ++ l2) := by
  induction h2 with
  | start => simpa using h1
  | sent _ he ih => rw [← List.append_assoc]; exact ih.sent he
  | received _ he ih => rw [← List.append_assoc]; exact ih.received he
  | failed _ he hn ih => exact ih.failed he hn

theorem Stepped.tagged {E : Env} (hS : StdSM E.S) {s s' : SState} {e : Event} (h : Stepped E s e s') (U : Bytes → Prop) {t : State} {me peer : Key32} (hb : Between s me peer)
    (hsm : e.small) (hs : SymHolds E.C.H s t) : ∃ t' k, Run U t t' [k] ∧ SymHolds E.C.H s' t' ∧ e.tagged E me peer k := by
  cases e with
  | sent pt cm =>
    obtain ⟨t', k, h1, h2, h3, -⟩ := encrypt_tagged E hS U s s' t pt cm hb hsm hs h
    exact ⟨t', k, h1, h2, h3⟩
  | received m pt k =>
    obtain ⟨d, b, h⟩ := h
    obtain ⟨t', es, h1, h2, -, h3⟩ := decrypt_tagged E hS U s s' t d m _ b hb hs h
    obtain ⟨k, rfl, h4⟩ := h3 pt _ rfl hsm
    exact ⟨t', k, h1, h2, h4⟩

/-- A record whose current state decrypts. -/
theorem decryptWithRecord_stepped {E : Env} {m : SignalMsg} {pos pos' : Nat} {r r' : Rec} {x : Bytes × MsgKeys} (h : decryptWithRecord E pos r m = (.ok x, r', pos'))
    (hc : (decryptWithState E (E.rng pos) r.state m).1.isOk = true) : Stepped E r.state (.received m x.1 x.2) r'.state := by
  unfold decryptWithRecord at h
  cases hg : decryptWithState E (E.rng pos) (r.heap r.cur) m with
  | mk g y =>
  obtain ⟨s', d⟩ := y
  rw [hg] at h
  have hg' : decryptWithState E (E.rng pos) r.state m = (g, s', d) := hg
  rw [hg'] at hc
  cases g with
  | err e => simp [Res.isOk] at hc
  | panic => simp [Res.isOk] at hc
  | ok x' =>
    simp only [Prod.mk.injEq, Res.ok.injEq] at h
    obtain ⟨rfl, h2, -⟩ := h
    refine ⟨E.rng pos, d, ?_⟩
    rw [hg', ← h2]
    simp [Rec.state, Rec.set]

/-- What store operations leave under an address. -/
theorem applyAll_load {effs : List Effect} : ∀ {st : Store} (a : Addr),
    (st.applyAll effs).1.load a = st.load a ∨ ∃ r, Effect.storeSession a r ∈ effs ∧ (st.applyAll effs).1.load a = .ok (Rec.ofStates r.state r.prevStates) := by
  induction effs with
  | nil => intro st a; exact .inl rfl
  | cons e effs ih =>
    intro st a
    unfold Store.applyAll
    cases hx : st.apply e with
    | none => exact .inl rfl
    | some st' =>
      simp only
      have hst : st'.load a = st.load a ∨ ∃ r, Effect.storeSession a r = e ∧ st'.load a = .ok (Rec.ofStates r.state r.prevStates) := by
        cases e with
        | saveIdentity b k => simp only [Store.apply, Option.some.injEq] at hx; subst hx; exact .inl rfl
        | removePreKey id => simp only [Store.apply, Option.some.injEq] at hx; subst hx; exact .inl rfl
        | storeSession b r =>
          cases hss : r.toStruct with
          | err e => simp [Store.apply, hss] at hx
          | panic => simp [Store.apply, hss] at hx
          | ok ss =>
            simp only [Store.apply, hss, Option.some.injEq] at hx
            subst hx
            by_cases hb : a = b
            · subst hb
              refine .inr ⟨r, rfl, ?_⟩
              unfold Store.load
              simp only [upd, if_true]
              rw [Rec.ofStruct_toStruct hss]
            · refine .inl ?_
              unfold Store.load
              simp only [upd, if_neg hb]
      rcases ih (st := st') a with h | ⟨r, h1, h2⟩
      · rw [h]
        rcases hst with h' | ⟨r, rfl, h'⟩
        · exact .inl h'
        · exact .inr ⟨r, by simp, h'⟩
      · exact .inr ⟨r, by simp [h1], h2⟩

/-- Processing a prekey message of a known session. -/
theorem process_known {E : Env} {ids : Addr → Option Key32} {pk spk : UInt32 → Option IdKeyPair} {a : Addr} {r r1 : Rec} {m : PreKeyMsg} {res : Res (Option OptU32)}
    {effs : List Effect} (hk : Verif.Knows r m) (h : process E ids pk spk a r m = (res, r1, effs)) : r1 = r := by
  unfold process at h
  split at h
  · cases h; rfl
  · have h2 : (processV3 E pk spk r m).2 = r := by
      unfold processV3
      rw [if_pos ((hasSessionState_iff r m).2 hk)]
    revert h h2
    generalize processV3 E pk spk r m = q
    obtain ⟨q, rq⟩ := q
    intro h h2
    simp only at h2
    subst h2
    cases q <;> cases h <;> rfl

/-- The sessions a call stores under the address continue the current one. -/
theorem callOps_history {E : Env} {n : Node} {a : Addr} {r0 : Rec} (hl : n.st.load a = .ok r0) (c : Call) (hk : n.Keeps E a (.call c)) :
    ∀ r, Effect.storeSession a r ∈ (n.st.callOps E n.pos c).1 → ∃ evs, History E r0.state r.state evs := by
  obtain ⟨-, hkb, hkp, hkc⟩ := hk
  intro r hm
  have haddr : c.addr = a := ((callOps_sending c hkc).2 a r hm).1.symm
  cases c with
  | encrypt b pt =>
    simp only [Call.addr] at haddr
    subst haddr
    simp only [Store.callOps, Store.encryptTrace, hl] at hm
    unfold encryptRec at hm
    cases hg : encryptState E r0.state pt with
    | mk g s' =>
    rw [hg] at hm
    cases g with
    | err e => simp at hm
    | panic => simp at hm
    | ok cm =>
      simp at hm
      subst hm
      refine ⟨[Event.sent pt cm], ?_⟩
      rw [show (r0.set r0.cur s').state = s' by simp [Rec.state, Rec.set]]
      exact History.sent (evs := []) .start hg
  | decrypt b m =>
    simp only [Call.addr] at haddr
    subst haddr
    simp only [Store.callOps, Store.decryptTrace, hl] at hm
    cases hs : n.st.sessions b with
    | none => simp [hs] at hm
    | some ss =>
      simp only [hs] at hm
      unfold decryptRec at hm
      have hcur := hkc r0 hl
      cases hg : decryptWithRecord E n.pos r0 m with
      | mk g y =>
      obtain ⟨r', pos'⟩ := y
      rw [hg] at hm hcur
      cases g with
      | err e => simp at hm
      | panic => simp at hm
      | ok x =>
        simp at hm
        subst hm
        exact ⟨_, (decryptWithRecord_stepped hg (hcur rfl)).history .start⟩
  | decryptPreKey b m =>
    simp only [Call.addr] at haddr
    subst haddr
    have hkn := hkp m r0 rfl hl
    simp only [Store.callOps, Store.decryptPreKeyTrace, hl] at hm
    have hcur := hkc r0
    unfold decryptPreKeyRec at hm
    cases hp : process E n.st.identities n.st.preKeys n.st.signedPreKeys b r0 m with
    | mk g y =>
    obtain ⟨r1, eff⟩ := y
    have hr1 := process_known hkn hp
    subst hr1
    rw [hp] at hm
    have hno : ∀ b r, Effect.storeSession b r ∈ eff → False := by
      clear hm
      intro b r hm
      unfold process at hp
      split at hp
      · cases hp; simp at hm
      · generalize processV3 E n.st.preKeys n.st.signedPreKeys r1 m = q at hp
        obtain ⟨q, rq⟩ := q
        cases q <;> cases hp <;> simp at hm
    cases g with
    | err e => exact (hno _ _ hm).elim
    | panic => exact (hno _ _ hm).elim
    | ok id =>
      simp only at hm
      have hcur := hcur id r1 eff hl hp
      cases hg : decryptWithRecord E n.pos r1 m.message with
      | mk g y =>
      obtain ⟨r', pos'⟩ := y
      rw [hg] at hm hcur
      cases g with
      | err e => exact (hno _ _ hm).elim
      | panic => exact (hno _ _ hm).elim
      | ok x =>
        have key : Effect.storeSession b r ∈ eff ++ [.storeSession b r'] → ∃ evs, History E r1.state r.state evs := by
          intro hm
          rcases List.mem_append.1 hm with hm | hm
          · exact (hno _ _ hm).elim
          simp at hm
          subst hm
          exact ⟨_, (decryptWithRecord_stepped hg (hcur rfl)).history .start⟩
        cases id with
        | none => exact key hm
        | some o =>
          simp only at hm
          split at hm
          · exact key hm
          · refine key ?_
            rcases List.mem_append.1 hm with hm | hm
            · exact hm
            · simp at hm
  | processBundle b bd =>
    simp only [Call.addr] at haddr
    subst haddr
    exact absurd rfl (hkb bd)

/-- What a deed that keeps the session does to it. -/
theorem deed_history {E : Env} {n : Node} {a : Addr} {r0 : Rec} (hl : n.st.load a = .ok r0) (d : Deed) (hk : n.Keeps E a d.what) :
    ∃ r evs, (n.deed E d).st.load a = .ok r ∧ History E r0.state r.state evs := by
  obtain ⟨x, dies⟩ := d
  have calls : ∀ c, n.Keeps E a (.call c) → ∀ effs, (∀ e ∈ effs, e ∈ (n.st.callOps E n.pos c).1) →
      ∃ r evs, (n.st.applyAll effs).1.load a = .ok r ∧ History E r0.state r.state evs := by
    intro c hc effs hsub
    rcases applyAll_load (effs := effs) (st := n.st) a with h | ⟨r, h1, h2⟩
    · exact ⟨r0, [], h.trans hl, .start⟩
    · obtain ⟨evs, h3⟩ := callOps_history hl c hc r (hsub _ h1)
      exact ⟨_, evs, h2, by rw [ofStates_state]; exact h3⟩
  have others : ∀ n' : Node, n'.st.sessions a = n.st.sessions a → ∃ r evs, n'.st.load a = .ok r ∧ History E r0.state r.state evs :=
    fun n' h => ⟨r0, [], (load_congr h).trans hl, .start⟩
  cases x with
  | call c =>
    cases dies with
    | none =>
      show ∃ r evs, (n.errand E (.call c)).st.load a = .ok r ∧ _
      rw [call_store]
      exact calls c hk _ fun _ h => h
    | some k => exact calls c hk _ fun _ h => List.mem_of_mem_take h
  | generate => exact others _ rfl
  | saveIdentity b k => exact others _ rfl
  | storePreKey id kp => exact others _ rfl
  | removePreKey id => exact others _ rfl
  | storeSignedPreKey id kp => exact others _ rfl
  | removeSignedPreKey id => exact others _ rfl
  | deleteSession b =>
    refine others _ ?_
    have : b ≠ a := fun e => hk.1 (by rw [e])
    simp [Node.deed, Node.errand, upd, Ne.symm this]

/-- A message sent or received by a call that is answered. -/
theorem uses_step {u : User} (h0 : ∀ a, u.start.st.sessions a = none) {pre : List Deed} {a : Addr} {e : Event} (h : u.Uses pre a e)
    (hc : ∀ d post, u.life = pre ++ d :: post → (u.start.deeds u.env pre).ByCurrent u.env d.what) :
    ∃ d post s r, u.life = pre ++ d :: post ∧ Sprung u.env u.start (pre ++ [d]) a s ∧ (u.start.deeds u.env (pre ++ [d])).st.load a = .ok r ∧ Stepped u.env s e r.state ∧
      ∀ r0, (u.start.deeds u.env pre).st.load a = .ok r0 → (u.start.deeds u.env pre).Keeps u.env a d.what → s = r0.state := by
  obtain ⟨c, ans, ⟨⟨post, hlife⟩, hans⟩, rfl, he⟩ := h
  have hcur := hc _ _ hlife
  refine ⟨⟨.call c, none⟩, post, ?_⟩
  rw [deeds_append]
  have hsp := deeds_sprung u.env u.start h0 pre
  have hsp' : (u.start.deeds u.env pre).st.All (Sprung u.env u.start (pre ++ [⟨.call c, none⟩])) :=
    hsp.mono fun a s ⟨s0, evs, ⟨k, hk⟩, hh⟩ => ⟨s0, evs, ⟨k, hk.later _ (by simp)⟩, hh⟩
  have hnew : ∀ k s0, SetUp u.env (u.start.deeds u.env pre) c.addr c k s0 → Sprung u.env u.start (pre ++ [⟨.call c, none⟩]) c.addr s0 :=
    fun k s0 h => ⟨s0, [], ⟨k, h.acquired none⟩, .start⟩
  generalize pre ++ [(⟨.call c, none⟩ : Deed)] = pre' at *
  generalize u.start.deeds u.env pre = n at *
  obtain ⟨r0, hl, hor, hall⟩ := hsp'.load c.addr
  cases c with
  | encrypt a pt =>
    simp only [Store.call] at hans
    subst hans
    cases hq : (n.st.encrypt u.env a pt).1 with
    | err e => simp [Call.event, hq] at he
    | panic => simp [Call.event, hq] at he
    | ok cm =>
    simp only [Call.event, hq, Option.some.injEq] at he
    subst he
    obtain ⟨r, s', q1, q2, q3, -⟩ := Store.encrypt_ok (Prod.ext hq rfl)
    have hrr := q1.symm.trans hl
    simp only [Res.ok.injEq] at hrr
    subst hrr
    refine ⟨r.state, _, hlife, ?_, q3, ?_, fun r0 h _ => ?_⟩
    · rcases hor with rfl | ⟨-, hw⟩
      · simp [encryptState, Rec.new, Rec.state, SState.new] at q2
      · exact hw.states _ (List.mem_cons_self ..)
    · rw [ofStates_state]
      exact q2
    · rw [Call.addr, q1] at h; cases h; rfl
  | decrypt a m =>
    simp only [Store.call] at hans
    subst hans
    cases hq : (n.st.decrypt u.env n.pos a m).1 with
    | err e => simp [Call.event, hq] at he
    | panic => simp [Call.event, hq] at he
    | ok x =>
    obtain ⟨pt, k⟩ := x
    simp only [Call.event, hq, Option.some.injEq] at he
    subst he
    obtain ⟨r, r', q1, q2, q3, q4, -⟩ := Store.decrypt_ok (Prod.ext hq rfl)
    have hrr := q1.symm.trans hl
    simp only [Res.ok.injEq] at hrr
    subst hrr
    have hk := hcur r q1 (by rw [q3]; rfl)
    refine ⟨r.state, _, hlife, ?_, q4, ?_, fun r0 h _ => ?_⟩
    · exact (hall (by intro h; rw [Call.addr] at h; rw [h] at q2; simp at q2)).states _ (List.mem_cons_self ..)
    · rw [ofStates_state]
      exact decryptWithRecord_stepped q3 hk
    · rw [Call.addr, q1] at h; cases h; rfl
  | decryptPreKey a m =>
    simp only [Store.call] at hans
    subst hans
    cases hq : (n.st.decryptPreKey u.env n.pos a m).1 with
    | err e => simp [Call.event, hq] at he
    | panic => simp [Call.event, hq] at he
    | ok x =>
    obtain ⟨pt, k⟩ := x
    simp only [Call.event, hq, Option.some.injEq] at he
    subst he
    obtain ⟨r, r1, r', id, q1, q2, q3, q4, -⟩ := Store.decryptPreKey_ok (Prod.ext hq rfl)
    have hrr := q1.symm.trans hl
    simp only [Res.ok.injEq] at hrr
    subst hrr
    have hk := hcur r _ r1 _ q1 q2 (by rw [q3]; rfl)
    refine ⟨r1.state, _, hlife, ?_, q4, ?_, fun r0 h hkeep => ?_⟩
    · exact (process_all hor q2 fun r0 ht hp => hnew _ _ (.message ht hp)).1.states _ (List.mem_cons_self ..)
    · rw [ofStates_state]
      exact decryptWithRecord_stepped q3 hk
    · rw [Call.addr, q1] at h; cases h
      rw [process_known (hkeep.2.2.1 m _ rfl q1) q2]
  | processBundle a b => simp [Call.event] at he

/-- From one point of a life to a later one. -/
theorem life_history {u : User} {a : Addr} {pre1 pre2 : List Deed} (hk : u.Keeps pre1 pre2 a) {d1 : Deed} {post1 : List Deed} (hlife : u.life = pre1 ++ d1 :: post1) {r0 : Rec}
    (hl : (u.start.deeds u.env (pre1 ++ [d1])).st.load a = .ok r0) :
    ∀ (k : Nat) (pre post : List Deed), u.life = pre ++ post → pre.length = pre1.length + 1 + k → pre.length ≤ pre2.length →
    ∃ r evs, (u.start.deeds u.env pre).st.load a = .ok r ∧ History u.env r0.state r.state evs := by
  intro k
  induction k with
  | zero =>
    intro pre post h1 h2 _
    have : pre = pre1 ++ [d1] := by
      have : pre ++ post = (pre1 ++ [d1]) ++ post1 := by rw [← h1, hlife]; simp
      exact (List.append_inj this (by simpa using h2)).1
    subst this
    exact ⟨r0, [], hl, .start⟩
  | succ k ih =>
    intro pre post h1 h2 h3
    rcases List.eq_nil_or_concat pre with rfl | ⟨pre, d, rfl⟩
    · simp at h2
    simp only [List.concat_eq_append, List.length_append, List.length_singleton] at h1 h2 h3 ⊢
    have h1' : u.life = pre ++ d :: post := by rw [h1]; simp
    obtain ⟨r, evs, g1, g2⟩ := ih pre (d :: post) h1' (by omega) (by omega)
    obtain ⟨r', evs', g3, g4⟩ := deed_history g1 d (hk pre d post h1' (by omega) (by omega))
    exact ⟨r', _, by rw [deeds_append]; exact g3, g2.trans g4⟩

/-- **C101 (partial).** While a user keeps its session under an address (between the two uses it does not delete it, does not set up another, and no message is decrypted with an
archived session), no message key is used twice: the cipher keys, MAC keys and IV blocks of two messages that are sent or received are different terms over the secrets the session had
before the first.  What happens in between is arbitrary: other calls, forged and repeated messages, failures, deaths within calls, operations on the stores.  Missing: the full claim
has no condition on what happens in between; it is false (`C101_replay_false`). -/
theorem C101_keys_used_once_partial (u : User) (hS : StdSM u.env.S) (h0 : ∀ a, u.start.st.sessions a = none) (a : Addr) (pre1 pre2 : List Deed) (e1 e2 : Event)
    (h1 : u.Uses pre1 a e1) (h2 : u.Uses pre2 a e2) (hlt : pre1.length < pre2.length) (hsm1 : e1.small) (hsm2 : e2.small)
    (hcur : ∀ d post, u.life = pre1 ++ d :: post → (u.start.deeds u.env pre1).ByCurrent u.env d.what)
    (hkeep : u.Keeps pre1 pre2 a) :
    ∃ peer s0 s evs t k1 k2 d, Acquired u.env u.start (pre1 ++ [d]) a peer s0 ∧ History u.env s0 s evs ∧ SymHolds u.env.C.H s t ∧ Fresh t ∧
      e1.tagged u.env u.me peer k1 ∧ e2.tagged u.env u.me peer k2 ∧ (∀ x ∈ k1.keys.list ++ k2.keys.list, Sym.Knows (· ∈ t.secrets) x) ∧
      ∀ x ∈ k1.keys.list, x ∉ k2.keys.list := by
  obtain ⟨d1, post1, s1, r1, hl1, ⟨s0, evs, ⟨peer, hacq⟩, hh⟩, hr1, hst1, -⟩ := uses_step h0 h1 hcur
  obtain ⟨d2, post2, s2, r2, hl2, -, -, hst2, hs2⟩ := uses_step h0 h2 fun d post h => (hkeep pre2 d post h hlt (Nat.le_refl _)).2.2.2
  obtain ⟨r, evs2, hr, hh2⟩ := life_history hkeep hl1 hr1 (pre2.length - (pre1.length + 1)) pre2 (d2 :: post2) hl2 (by omega) (Nat.le_refl _)
  have := hs2 r hr (hkeep pre2 d2 post2 hl2 hlt (Nat.le_refl _))
  subst this
  obtain ⟨dhs, t0, -, hb0, hsym⟩ := hacq.session
  have hb1 := hb0.history hh
  have hinit : Initialised s1 := (C64_initialised u.env).2.2 _ _ _ (hsym (fun _ => False)).initialised hh
  obtain ⟨t, ht, hf⟩ := C64_applies u.env.C.H s1 hinit
  obtain ⟨t1, k1, q1, q2, q3⟩ := hst1.tagged hS (fun _ => False) hb1 hsm1 ht
  have hb2 := hb0.history (hst1.history hh)
  obtain ⟨t2, es, us, p1, p2, -, -⟩ := history_run hh2 (fun _ => False) t1 q2
  obtain ⟨t3, k2, w1, w2, w3⟩ := hst2.tagged hS (fun _ => False) (hb2.history hh2) hsm2 p2
  have hrun := (q1.trans p1).trans w1
  refine ⟨peer, s0, s1, evs, t, k1, k2, d1, hacq, hh, ht, hf, q3, w3, fun x hx => ?_, ?_⟩
  · refine (run_known (K := (· ∈ t.secrets)) (fun v hv => hv.elim) hrun fun y hy => .given hy).2 x ?_
    rw [List.mem_flatMap]
    rcases List.mem_append.1 hx with hx | hx
    · exact ⟨k1, by simp, hx⟩
    · exact ⟨k2, by simp, hx⟩
  · have := run_once hrun hf.anti
    rw [List.append_assoc] at this
    exact (List.pairwise_append.1 this).2.2 k1 (by simp) k2 (by simp)

/-- **C101 (a message is accepted at most once; partial).** Under the same conditions: if the same message was accepted twice, then its tag is the tag of the same bytes under two
different MAC keys (different terms over the secrets the session had before). -/
theorem C101_accepted_once_partial (u : User) (hS : StdSM u.env.S) (h0 : ∀ a, u.start.st.sessions a = none) (a : Addr) (pre1 pre2 : List Deed) (m : SignalMsg) (pt1 pt2 : Bytes)
    (mk1 mk2 : MsgKeys) (h1 : u.Uses pre1 a (.received m pt1 mk1)) (h2 : u.Uses pre2 a (.received m pt2 mk2)) (hlt : pre1.length < pre2.length)
    (hm : ∀ b, m.struct.ratchetKey = some b ∨ m.struct.cipherText = some b → b.length < 2 ^ 64)
    (hcur : ∀ d post, u.life = pre1 ++ d :: post → (u.start.deeds u.env pre1).ByCurrent u.env d.what)
    (hkeep : u.Keeps pre1 pre2 a) :
    ∃ peer s t x y b, SymHolds u.env.C.H s t ∧ Fresh t ∧ x ≠ y ∧ Sym.Knows (· ∈ t.secrets) x ∧ Sym.Knows (· ∈ t.secrets) y ∧ x.eval u.env.C.H = mk1.macKey ∧
      y.eval u.env.C.H = mk2.macKey ∧ Covers u.env.S peer u.me m b ∧ TagIs u.env.C.H m (.hash x (.pub b)) ∧ TagIs u.env.C.H m (.hash y (.pub b)) := by
  have hsm : ∀ pt mk, (Event.received m pt mk).small := fun pt mk => ⟨fun b hb => hm b (.inl hb), fun b hb => hm b (.inr hb)⟩
  obtain ⟨peer, s0, s, evs, t, k1, k2, d, -, -, ht, hf, g1, g2, g3, g4⟩ := C101_keys_used_once_partial u hS h0 a pre1 pre2 _ _ h1 h2 hlt (hsm _ _) (hsm _ _) hcur hkeep
  obtain ⟨ka1, ct1, b1, -, -, c1, tag1⟩ := g1
  obtain ⟨ka2, ct2, b2, -, -, c2, tag2⟩ := g2
  have hb : b1 = b2 := by
    have hpj : ¬ protoSM = jsonSM := by
      intro e
      have : protoSM.ser ⟨none, 0, 0, none, 0, none⟩ = jsonSM.ser ⟨none, 0, 0, none, 0, none⟩ := by rw [e]
      exact absurd this (by decide)
    obtain ⟨rk, ct, i1, i2, i3⟩ := c1
    obtain ⟨rk', ct', j1, j2, j3⟩ := c2
    rw [i1] at j1; rw [i2] at j2
    cases j1; cases j2
    rcases i3 with ⟨i3, i4⟩ | ⟨i3, i4⟩ <;> rcases j3 with ⟨j3, j4⟩ | ⟨j3, j4⟩
    · rw [i4, j4]
    · exact absurd (i3.symm.trans j3) hpj
    · exact absurd (j3.symm.trans i3) hpj
    · rw [i4, j4]
  subst hb
  refine ⟨peer, s, t, k1.keys.mac, k2.keys.mac, b1, ht, hf, fun e => ?_, g3 _ (by simp [MsgTerms.list]), g3 _ (by simp [MsgTerms.list]), ka1.mac.symm, ka2.mac.symm, c1, tag1, tag2⟩
  exact g4 k1.keys.mac (by simp [MsgTerms.list]) (by rw [e]; simp [MsgTerms.list])

/-! ### Where it fails, and an example -/

section
open Toy
set_option maxRecDepth 100000

/-- What Bob of C98 gets when the message is delivered the first and the second time. -/
def twice1 := (((⟨bobStore, 0⟩ : Node).deeds dryBob (replayLife.take 7)).st.call dryBob ((⟨bobStore, 0⟩ : Node).deeds dryBob (replayLife.take 7)).pos (.decrypt alice msg4)).1
def twice2 := (((⟨bobStore, 0⟩ : Node).deeds dryBob (replayLife.take 8)).st.call dryBob ((⟨bobStore, 0⟩ : Node).deeds dryBob (replayLife.take 8)).pos (.decrypt alice msg4)).1

/-- **C101 fails**: a user to whom a message of an archived session is delivered, and then another one of that session, accepts the latter twice when it is delivered twice, in two calls made
directly one after the other, with the same message key. -/
theorem C101_replay_false : ∃ (u : User) (a : Addr) (m : SignalMsg) (pt : Bytes) (k : MsgKeys) (pre : List Deed) (d : Deed), StdSM u.env.S ∧ (∀ a, u.start.st.sessions a = none) ∧
    FreshDraws u.env ∧ d.what = .call (.decrypt a m) ∧ u.Uses pre a (.received m pt k) ∧ u.Uses (pre ++ [d]) a (.received m pt k) := by
  have key : ((match twice1, twice2 with
      | .decrypted (.ok x), .decrypted (.ok y) => decide (x = y)
      | _, _ => false) = true) := by decide +kernel
  obtain ⟨x, h1, h2⟩ : ∃ x, twice1 = .decrypted (.ok x) ∧ twice2 = .decrypted (.ok x) := by
    revert key
    generalize twice1 = p
    generalize twice2 = q
    intro key
    split at key
    · rw [decide_eq_true_eq] at key
      exact ⟨_, rfl, by rw [key]⟩
    · cases key
  refine ⟨replayBob, alice, msg4, x.1, x.2, replayLife.take 7, ⟨.call (.decrypt alice msg4), none⟩, .inl rfl, fun _ => rfl, dryBob_fresh, rfl, ?_, ?_⟩
  · exact ⟨.decrypt alice msg4, _, ⟨⟨replayLife.drop 8, rfl⟩, h1⟩, rfl, rfl⟩
  · exact ⟨.decrypt alice msg4, _, ⟨⟨replayLife.drop 9, rfl⟩, h2⟩, rfl, rfl⟩

/-- Bob gets Alice's first message and answers it; the first message is delivered again; he dies while he encrypts another answer, gets another message (and starts a new sending chain)
and answers it. -/
def onceBob : User := ⟨dryBob, ⟨bobStore, 0⟩, [
  ⟨.call (.decryptPreKey alice msg1), none⟩, ⟨.call (.encrypt alice [9, 9]), none⟩, ⟨.call (.decryptPreKey alice msg1), none⟩, ⟨.call (.encrypt alice [2]), some 1⟩,
  ⟨.call (.decrypt alice msg3), none⟩, ⟨.call (.encrypt alice [3]), none⟩]⟩

theorem byCurrent_decryptPreKey' {E : Env} {n : Node} {a : Addr} {m : PreKeyMsg}
    (h : (decryptWithRecord E n.pos (process E n.st.identities n.st.preKeys n.st.signedPreKeys a (recOf n.st a) m).2.1 m.message).1.isOk = false) :
    n.ByCurrent E (.call (.decryptPreKey a m)) := by
  intro r id r1 effs hl hp hx
  have : recOf n.st a = r := by unfold recOf; rw [hl]
  rw [this, hp] at h
  rw [h] at hx
  cases hx

/-- C101 applies to it, with the first received message and the last sent one: the hypotheses hold. -/
example : StdSM onceBob.env.S ∧ (∀ a, onceBob.start.st.sessions a = none) ∧ (∃ pt k, onceBob.Uses [] alice (.received msg1.message pt k)) ∧
    (∃ cm, onceBob.Uses (onceBob.life.take 5) alice (.sent [3] cm)) ∧
    (∀ d post, onceBob.life = [] ++ d :: post → (onceBob.start.deeds onceBob.env []).ByCurrent onceBob.env d.what) ∧ onceBob.Keeps [] (onceBob.life.take 5) alice := by
  refine ⟨.inl rfl, fun _ => rfl, ?_, ?_, ?_, ?_⟩
  · have key : ((match (onceBob.start.st.call onceBob.env onceBob.start.pos (.decryptPreKey alice msg1)).1 with
      | .decrypted (.ok _) => true
      | _ => false) = true) := by decide +kernel
    split at key
    · rename_i x hx
      exact ⟨x.1, x.2, .decryptPreKey alice msg1, _, ⟨⟨onceBob.life.drop 1, rfl⟩, hx⟩, rfl, rfl⟩
    · cases key
  · have key : ((match ((onceBob.start.deeds onceBob.env (onceBob.life.take 5)).st.call onceBob.env (onceBob.start.deeds onceBob.env (onceBob.life.take 5)).pos (.encrypt alice [3])).1 with
      | .encrypted (.ok _) => true
      | _ => false) = true) := by decide +kernel
    split at key
    · rename_i x hx
      exact ⟨x, .encrypt alice [3], _, ⟨⟨[], rfl⟩, hx⟩, rfl, rfl⟩
    · cases key
  · intro d post h
    have : d = ⟨.call (.decryptPreKey alice msg1), none⟩ := by
      have := (List.cons.inj h).1
      exact this.symm
    subst this
    exact byCurrent_decryptPreKey (by decide +kernel)
  · intro pre d post h g1 g2
    have e1 : d = (onceBob.life.drop pre.length).headD ⟨.generate, none⟩ := by rw [h]; simp
    have e2 : pre = onceBob.life.take pre.length := by rw [h]; simp
    have g2' : pre.length ≤ 5 := g2
    have g1' : 0 < pre.length := g1
    clear g1 g2 h
    generalize pre.length = k at *
    subst e1 e2
    have : k = 1 ∨ k = 2 ∨ k = 3 ∨ k = 4 ∨ k = 5 := by omega
    rcases this with rfl | rfl | rfl | rfl | rfl
    · exact ⟨by simp [onceBob], by simp [onceBob], by simp [onceBob], trivial⟩
    · refine ⟨by simp [onceBob], by simp [onceBob], ?_, byCurrent_decryptPreKey' (by decide +kernel)⟩
      intro m r hm hl
      have : m = msg1 := by simp [onceBob] at hm; exact hm.symm
      subst this
      have hr : recOf (onceBob.start.deeds onceBob.env (onceBob.life.take 2)).st alice = r := by unfold recOf; rw [hl]
      rw [← hr, ← hasSessionState_iff]
      decide +kernel
    · exact ⟨by simp [onceBob], by simp [onceBob], by simp [onceBob], trivial⟩
    · exact ⟨by simp [onceBob], by simp [onceBob], by simp [onceBob], byCurrent_decrypt (by decide +kernel)⟩
    · exact ⟨by simp [onceBob], by simp [onceBob], by simp [onceBob], trivial⟩
end

end Verif
