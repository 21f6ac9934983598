import Verif.Props.Lives
/-
C98: over a whole life, no two messages a user sends are at the same position (sender ratchet key and counter), that is, encrypted with the same message key.  False of the code: a replayed
message can bring back a stale copy of the current session.  True as long as no message is decrypted with an archived session.
-/
set_option linter.unusedSimpArgs false
namespace Verif

/-! ### What is claimed -/

/-- Different random numbers make different ratchet keys. -/
def FreshDraws (E : Env) : Prop :=
  ∀ p q r r', p ≠ q → E.rng p = some r → E.rng q = some r' → E.C.basePub (clamp r) ≠ E.C.basePub (clamp r')

/-- If the call is a decryption that succeeds, then the current session decrypts the message (in the case of `DecryptMessage`, after the message has set up a session, if it does). -/
def Node.ByCurrent (E : Env) (n : Node) : Errand → Prop
  | .call (.decrypt a m) => ∀ r, n.st.load a = .ok r → (decryptWithRecord E n.pos r m).1.isOk = true → (decryptWithState E (E.rng n.pos) r.state m).1.isOk = true
  | .call (.decryptPreKey a m) => ∀ r id r1 effs, n.st.load a = .ok r → process E n.st.identities n.st.preKeys n.st.signedPreKeys a r m = (.ok id, r1, effs) →
      (decryptWithRecord E n.pos r1 m.message).1.isOk = true → (decryptWithState E (E.rng n.pos) r1.state m.message).1.isOk = true
  | _ => True

/-- In the life no message is decrypted with an archived session. -/
def User.NeverArchived (u : User) : Prop := ∀ pre d post, u.life = pre ++ d :: post → (u.start.deeds u.env pre).ByCurrent u.env d.what

/-! ### The position of a session's sending chain -/

/-- Ratchet key and index of the sending chain. -/
def SState.sending (s : SState) : Option (Key32 × UInt32) := s.senderChain.map fun c => (c.pair.pub, c.chainKey.index)

/-- That of the current session stored under the address. -/
def Store.sending (st : Store) (a : Addr) : Option (Key32 × UInt32) :=
  match st.load a with
  | .ok r => r.state.sending
  | _ => none

/-- What a call may do to it: nothing, advance it, or replace it with a chain of a new key, made with a random number drawn in the meantime. -/
inductive Moved (E : Env) (p p' : Nat) (x : Option (Key32 × UInt32)) : Option (Key32 × UInt32) → Prop
  | same : Moved E p p' x x
  | none : Moved E p p' x .none
  | next {k i} : x = some (k, i) → Moved E p p' x (some (k, i + 1))
  | fresh {q w} : p ≤ q → q < p' → E.rng q = some w → Moved E p p' x (some (E.C.basePub (clamp w), 0))

theorem dec_sending {E : Env} {draw : Option Key32} {s s' : SState} {m : SignalMsg} {x : Bytes × MsgKeys} {d : Bool} (h : decryptWithState E draw s m = (.ok x, s', d)) :
    (s'.sending = s.sending ∧ s.receiverChain m.senderRatchetKey ≠ none) ∨
    (d = true ∧ ∃ w, draw = some w ∧ s'.sending = some (E.C.basePub (clamp w), 0)) := by
  rcases decryptWithState_cases E draw s m with ⟨res, d', he, hno, -⟩ | ⟨s1, c, d', hc, hsc, hv, hcase, he⟩
  · rw [he] at h
    cases h
    simp [Res.isOk] at hno
  · rw [he] at h
    have hs1 : s'.senderChain = s1.senderChain ∧ d' = d := by
      generalize c.recv E.C m.struct.counter = q at h
      obtain ⟨res, c'⟩ := q
      cases res with
      | err e => simp at h
      | panic => simp at h
      | ok mk =>
        simp only [Prod.mk.injEq] at h
        obtain ⟨-, h2, h3⟩ := h
        refine ⟨?_, h3⟩
        rw [← h2]
        unfold clearPending
        split <;> rfl
    rcases hcase with ⟨rfl, -⟩ | ⟨-, hd, root, sc, p, r, -, -, -, hdraw, rfl⟩
    · left
      exact ⟨by rw [SState.sending, hs1.1, SState.sending], by rw [hc]; simp⟩
    · right
      refine ⟨hs1.2 ▸ hd, r, hdraw, ?_⟩
      rw [SState.sending, hs1.1]
      rfl

/-- A record whose current state decrypts. -/
theorem decryptWithRecord_byCurrent {E : Env} {m : SignalMsg} {pos pos' : Nat} {r r' : Rec} {x : Bytes × MsgKeys} (h : decryptWithRecord E pos r m = (.ok x, r', pos'))
    (hc : (decryptWithState E (E.rng pos) r.state m).1.isOk = true) :
    (r'.state.sending = r.state.sending ∧ r.state.receiverChain m.senderRatchetKey ≠ none) ∨
    (pos < pos' ∧ ∃ w, E.rng pos = some w ∧ r'.state.sending = some (E.C.basePub (clamp w), 0)) := by
  unfold decryptWithRecord at h
  cases hg : decryptWithState E (E.rng pos) (r.heap r.cur) m with
  | mk g y =>
  obtain ⟨s', d⟩ := y
  rw [hg] at h
  have hg' : decryptWithState E (E.rng pos) r.state m = (g, s', d) := hg
  rw [hg'] at hc
  cases g with
  | err e => simp [Res.isOk] at hc
  | panic => simp [Res.isOk] at hc
  | ok x' =>
    simp only [Prod.mk.injEq] at h
    obtain ⟨-, h2, h3⟩ := h
    have hst : r'.state = s' := by rw [← h2]; simp [Rec.state, Rec.set]
    rw [hst]
    rcases dec_sending hg' with hx | ⟨rfl, hx⟩
    · exact .inl hx
    · refine .inr ⟨?_, hx⟩
      rw [← h3]; simp [bump]

/-- What is stored by store operations. -/
theorem applyAll_sending {effs : List Effect} : ∀ {st : Store} (a : Addr),
    (st.applyAll effs).1.sending a = st.sending a ∨ ∃ r, Effect.storeSession a r ∈ effs ∧ (st.applyAll effs).1.sending a = r.state.sending := by
  induction effs with
  | nil => intro st a; exact .inl rfl
  | cons e effs ih =>
    intro st a
    unfold Store.applyAll
    cases hx : st.apply e with
    | none => exact .inl rfl
    | some st' =>
      simp only
      have hst : st'.sending a = st.sending a ∨ ∃ r, Effect.storeSession a r = e ∧ st'.sending a = r.state.sending := by
        cases e with
        | saveIdentity b k => simp only [Store.apply, Option.some.injEq] at hx; subst hx; exact .inl rfl
        | removePreKey id => simp only [Store.apply, Option.some.injEq] at hx; subst hx; exact .inl rfl
        | storeSession b r =>
          cases hss : r.toStruct with
          | err e => simp [Store.apply, hss] at hx
          | panic => simp [Store.apply, hss] at hx
          | ok ss =>
            simp only [Store.apply, hss, Option.some.injEq] at hx
            subst hx
            by_cases hb : a = b
            · subst hb
              refine .inr ⟨r, rfl, ?_⟩
              unfold Store.sending Store.load
              simp only [upd, if_true]
              rw [Rec.ofStruct_toStruct hss]
              simp only [ofStates_state]
            · refine .inl ?_
              unfold Store.sending Store.load
              simp only [upd, if_neg hb]
      rcases ih (st := st') a with h | ⟨r, h1, h2⟩
      · rw [h]
        rcases hst with h' | ⟨r, rfl, h'⟩
        · exact .inl h'
        · exact .inr ⟨r, by simp, h'⟩
      · exact .inr ⟨r, by simp [h1], h2⟩

theorem Store.sending_ok {st : Store} {a : Addr} {r : Rec} (h : st.load a = .ok r) : st.sending a = r.state.sending := by unfold Store.sending; rw [h]

/-- A loaded record is new or not fresh. -/
theorem load_fresh {st : Store} {a : Addr} {r : Rec} (h : st.load a = .ok r) : r = Rec.new ∨ r.fresh = false := by
  unfold Store.load at h
  cases hs : st.sessions a with
  | none => simp only [hs, Res.ok.injEq] at h; exact .inl h.symm
  | some ss =>
    simp only [hs] at h
    right
    unfold Rec.ofStruct at h
    cases h1 : seqRes (ss.previous.map SState.ofStruct) with
    | err e => simp [h1] at h
    | panic => simp [h1] at h
    | ok ps =>
      simp only [h1, Res.bind_ok] at h
      cases h2 : SState.ofStruct ss.state with
      | err e => simp [h2] at h
      | panic => simp [h2] at h
      | ok s => simp only [h2, Res.map_ok, Res.ok.injEq] at h; rw [← h]; rfl

/-- What the calls store. -/
theorem callOps_sending {E : Env} {n : Node} (c : Call) (hc : n.ByCurrent E (.call c)) :
    n.pos ≤ (n.st.callOps E n.pos c).2 ∧ ∀ b r, Effect.storeSession b r ∈ (n.st.callOps E n.pos c).1 → b = c.addr ∧
      Moved E n.pos (n.st.callOps E n.pos c).2 (n.st.sending b) r.state.sending := by
  cases c with
  | encrypt a pt =>
    refine ⟨Nat.le_refl _, ?_⟩
    simp only [Store.callOps, Store.encryptTrace, Call.addr]
    cases hl : n.st.load a with
    | err e => simp
    | panic => simp
    | ok r0 =>
      simp only
      unfold encryptRec
      cases hg : encryptState E r0.state pt with
      | mk g s' =>
      cases g with
      | err e => simp
      | panic => simp
      | ok cm =>
        intro b r hm
        simp at hm
        obtain ⟨rfl, rfl⟩ := hm
        refine ⟨rfl, ?_⟩
        obtain ⟨sc, body, sm, hsc, -, -, hs', -⟩ := encryptState_ok hg
        rw [Store.sending_ok hl]
        have : (r0.set r0.cur s').state.sending = some (sc.pair.pub, sc.chainKey.index + 1) := by
          rw [show (r0.set r0.cur s').state = s' by simp [Rec.state, Rec.set], hs']
          rfl
        rw [this]
        exact .next (by rw [SState.sending, hsc]; rfl)
  | decrypt a m =>
    simp only [Store.callOps, Store.decryptTrace, Call.addr]
    cases hs : n.st.sessions a with
    | none => simp
    | some ss =>
      simp only
      cases hl : n.st.load a with
      | err e => simp
      | panic => simp
      | ok r0 =>
        simp only
        unfold decryptRec
        have hpos := (decryptWithRecord_pos E n.pos r0 m).1
        have hcur := hc r0 hl
        cases hg : decryptWithRecord E n.pos r0 m with
        | mk g y =>
        obtain ⟨r', pos'⟩ := y
        rw [hg] at hpos hcur
        cases g with
        | err e => exact ⟨hpos, by simp⟩
        | panic => exact ⟨hpos, by simp⟩
        | ok x =>
          refine ⟨hpos, ?_⟩
          intro b r hm
          simp at hm
          obtain ⟨rfl, rfl⟩ := hm
          refine ⟨rfl, ?_⟩
          rw [Store.sending_ok hl]
          rcases decryptWithRecord_byCurrent hg (hcur rfl) with ⟨h, -⟩ | ⟨h1, w, h2, h3⟩
          · rw [h]; exact .same
          · rw [h3]; exact .fresh (Nat.le_refl _) h1 h2
  | decryptPreKey a m =>
    simp only [Store.callOps, Store.decryptPreKeyTrace, Call.addr]
    cases hl : n.st.load a with
    | err e => simp
    | panic => simp
    | ok r0 =>
      simp only
      have hcur := hc r0
      unfold decryptPreKeyRec
      cases hp : process E n.st.identities n.st.preKeys n.st.signedPreKeys a r0 m with
      | mk g y =>
      obtain ⟨r1, eff⟩ := y
      have hno : ∀ b r, Effect.storeSession b r ∈ eff → False := by
        intro b r hm
        unfold process at hp
        split at hp
        · cases hp; simp at hm
        · generalize processV3 E n.st.preKeys n.st.signedPreKeys r0 m = q at hp
          obtain ⟨q, rq⟩ := q
          cases q <;> cases hp <;> simp at hm
      cases g with
      | err e => exact ⟨Nat.le_refl _, fun b r hm => (hno b r hm).elim⟩
      | panic => exact ⟨Nat.le_refl _, fun b r hm => (hno b r hm).elim⟩
      | ok id =>
        simp only
        have hpos := (decryptWithRecord_pos E n.pos r1 m.message).1
        have hcur := hcur id r1 eff hl hp
        have hr1 : r1 = r0 ∨ r1.state.receiverChains = [] := by
          unfold process at hp
          split at hp
          · cases hp
          · cases hq : processV3 E n.st.preKeys n.st.signedPreKeys r0 m with
            | mk q rq =>
            rw [hq] at hp
            cases q with
            | err e => cases hp
            | panic => cases hp
            | ok o =>
              simp only [Prod.mk.injEq, Res.ok.injEq] at hp
              obtain ⟨-, rfl, -⟩ := hp
              rcases processV3_ok (load_fresh hl) hq with ⟨-, h⟩ | ⟨r2, s0, h1, h2, h3⟩
              · exact .inl h
              · right
                have hk : ¬ Knows Rec.new m := by
                  rintro ⟨s, hs, -, hb⟩
                  simp only [Rec.new, Rec.state, Rec.prevStates, List.map_nil, List.mem_cons, List.not_mem_nil, or_false] at hs
                  subst hs
                  simp [SState.new] at hb
                obtain ⟨kp, ot, keys, -, -, -, e⟩ := processV3_new hk h1
                have : s0.receiverChains = [] := by
                  rw [← h2, e]; simp [Rec.state, Rec.set, respond, SState.setSenderChain, Rec.new, SState.new]
                rw [h3]
                simpa [Rec.state, Rec.set] using this
        cases hg : decryptWithRecord E n.pos r1 m.message with
        | mk g y =>
        obtain ⟨r', pos'⟩ := y
        rw [hg] at hpos hcur
        have key : ∀ b r, Effect.storeSession b r ∈ eff ++ [.storeSession a r'] → (∃ x, g = .ok x) → b = a ∧ Moved E n.pos pos' (n.st.sending b) r.state.sending := by
          rintro b r hm ⟨x, rfl⟩
          rcases List.mem_append.1 hm with hm | hm
          · exact (hno b r hm).elim
          simp at hm
          obtain ⟨rfl, rfl⟩ := hm
          refine ⟨rfl, ?_⟩
          rw [Store.sending_ok hl]
          rcases decryptWithRecord_byCurrent hg (hcur rfl) with ⟨h, h'⟩ | ⟨h1, w, h2, h3⟩
          · rcases hr1 with rfl | hr1
            · rw [h]; exact .same
            · exfalso; apply h'
              simp [SState.receiverChain, hr1]
          · rw [h3]; exact .fresh (Nat.le_refl _) h1 h2
        cases g with
        | err e => exact ⟨hpos, fun b r hm => (hno b r hm).elim⟩
        | panic => exact ⟨hpos, fun b r hm => (hno b r hm).elim⟩
        | ok x =>
          cases id with
          | none => exact ⟨hpos, fun b r hm => key b r hm ⟨x, rfl⟩⟩
          | some o =>
            simp only
            split
            · exact ⟨hpos, fun b r hm => key b r hm ⟨x, rfl⟩⟩
            · refine ⟨hpos, fun b r hm => key b r ?_ ⟨x, rfl⟩⟩
              rcases List.mem_append.1 hm with hm | hm
              · exact hm
              · simp at hm
  | processBundle a bd =>
    simp only [Store.callOps, Store.processBundleTrace, Call.addr]
    cases hck : checkBundle E n.st.identities a bd with
    | err e => simp
    | panic => simp
    | ok spk =>
      simp only
      cases hl : n.st.load a with
      | err e => simp
      | panic => simp
      | ok r0 =>
        simp only
        cases hg : buildFromBundle E n.pos a r0 bd spk with
        | mk g y =>
        obtain ⟨r1, p1, effs⟩ := y
        have hp1 : n.pos ≤ p1 := by
          unfold buildFromBundle at hg
          revert hg
          repeat' (first | (intro hg; cases hg; omega) | split)
        cases g with
        | err e => rw [buildFromBundle_err_effs hg]; exact ⟨hp1, by simp⟩
        | panic => rw [buildFromBundle_panic_effs hg]; exact ⟨hp1, by simp⟩
        | ok u =>
          obtain ⟨base, bp, ratchet, derived, sending, g1, g2, g3, g4, g5, g6, g7, g8⟩ := buildFromBundle_ok hg
          refine ⟨hp1, ?_⟩
          rw [g8]
          intro b r hm
          simp at hm
          obtain ⟨rfl, rfl⟩ := hm
          refine ⟨rfl, ?_⟩
          cases hr : E.rng (n.pos + 1) with
          | none => rw [hr] at g4; simp [generateKeyPair] at g4
          | some w =>
            rw [hr] at g4
            simp only [generateKeyPair, Res.ok.injEq] at g4
            have : r.state.sending = some (E.C.basePub (clamp w), sending.chain.index) := by
              rw [g6, ← g4]; simp [Rec.state, Rec.set, initSenderState, SState.setSenderChain, SState.sending]
            rw [createChain_eq E.C derived.root spk ratchet (p := clamp w) (by rw [← g4])] at g5
            simp only [Res.ok.injEq] at g5
            rw [this, ← g5]
            exact .fresh (q := n.pos + 1) (by omega) (by show n.pos + 1 < p1; omega) hr

theorem call_pos (E : Env) (n : Node) (c : Call) : (n.errand E (.call c)).pos = (n.st.callOps E n.pos c).2 := by
  cases c <;> rfl

/-- What a deed does to the sending chains. -/
theorem deed_sending {E : Env} {n : Node} (d : Deed) (hc : n.ByCurrent E d.what) :
    n.pos ≤ (n.deed E d).pos ∧ ∃ a0, ∀ b, (b ≠ a0 → (n.deed E d).st.sending b = n.st.sending b) ∧
      Moved E n.pos (n.deed E d).pos (n.st.sending b) ((n.deed E d).st.sending b) := by
  obtain ⟨x, dies⟩ := d
  have calls : ∀ c, n.ByCurrent E (.call c) → ∀ effs, (∀ e ∈ effs, e ∈ (n.st.callOps E n.pos c).1) → ∀ b,
      (b ≠ c.addr → (n.st.applyAll effs).1.sending b = n.st.sending b) ∧
      Moved E n.pos (n.st.callOps E n.pos c).2 (n.st.sending b) ((n.st.applyAll effs).1.sending b) := by
    intro c hc effs hsub b
    rcases applyAll_sending (effs := effs) (st := n.st) b with h | ⟨r, h1, h2⟩
    · exact ⟨fun _ => h, by rw [h]; exact .same⟩
    · obtain ⟨e, hm⟩ := (callOps_sending c hc).2 b r (hsub _ h1)
      exact ⟨fun hb => absurd e hb, by rw [h2]; exact hm⟩
  have others : ∀ n' : Node, n'.st.sessions = n.st.sessions → ∀ b, n'.st.sending b = n.st.sending b := by
    intro n' h b
    unfold Store.sending Store.load
    rw [h]
  cases x with
  | call c =>
    have hp := (callOps_sending c hc).1
    cases dies with
    | none =>
      show n.pos ≤ (n.errand E (.call c)).pos ∧ ∃ a0, ∀ b, (b ≠ a0 → (n.errand E (.call c)).st.sending b = n.st.sending b) ∧
        Moved E n.pos (n.errand E (.call c)).pos (n.st.sending b) ((n.errand E (.call c)).st.sending b)
      rw [call_pos, call_store]
      exact ⟨hp, c.addr, calls c hc _ fun _ h => h⟩
    | some k => exact ⟨hp, c.addr, calls c hc _ fun _ h => List.mem_of_mem_take h⟩
  | generate => exact ⟨Nat.le_succ _, ⟨"", 0⟩, fun b => ⟨fun _ => others _ rfl b, by rw [others _ rfl b]; exact .same⟩⟩
  | saveIdentity a k => exact ⟨Nat.le_refl _, a, fun b => ⟨fun _ => others _ rfl b, by rw [others _ rfl b]; exact .same⟩⟩
  | storePreKey id kp => exact ⟨Nat.le_refl _, ⟨"", 0⟩, fun b => ⟨fun _ => others _ rfl b, by rw [others _ rfl b]; exact .same⟩⟩
  | removePreKey id => exact ⟨Nat.le_refl _, ⟨"", 0⟩, fun b => ⟨fun _ => others _ rfl b, by rw [others _ rfl b]; exact .same⟩⟩
  | storeSignedPreKey id kp => exact ⟨Nat.le_refl _, ⟨"", 0⟩, fun b => ⟨fun _ => others _ rfl b, by rw [others _ rfl b]; exact .same⟩⟩
  | removeSignedPreKey id => exact ⟨Nat.le_refl _, ⟨"", 0⟩, fun b => ⟨fun _ => others _ rfl b, by rw [others _ rfl b]; exact .same⟩⟩
  | deleteSession a =>
    refine ⟨Nat.le_refl _, a, fun b => ?_⟩
    by_cases hb : b = a
    · subst hb
      have : (n.deed E ⟨.deleteSession b, dies⟩).st.sending b = none := by
        simp [Node.deed, Node.errand, Store.sending, Store.load, upd, Rec.new, Rec.state, SState.new, SState.sending]
      rw [this]
      exact ⟨fun h => absurd rfl h, .none⟩
    · have : (n.deed E ⟨.deleteSession a, dies⟩).st.sending b = n.st.sending b := by
        simp [Node.deed, Node.errand, Store.sending, Store.load, upd, hb]
      rw [this]
      exact ⟨fun _ => rfl, .same⟩

/-- What the user sends has the position of the sending chain, which advances. -/
theorem sends_position {u : User} (hS : StdSM u.env.S) (h0 : ∀ a, u.start.st.sessions a = none) {pre : List Deed} {a : Addr} {pt : Bytes} {cm : CipherMsg}
    (hpt : pt.length < 2 ^ 63) (h : u.Sends pre a pt cm) :
    (u.start.deeds u.env pre).st.sending a = some (cm.inner.senderRatchetKey, cm.inner.struct.counter) ∧
    (u.start.deeds u.env (pre ++ [⟨.call (.encrypt a pt), none⟩])).st.sending a = some (cm.inner.senderRatchetKey, cm.inner.struct.counter + 1) := by
  obtain ⟨-, hans⟩ := h
  rw [deeds_append]
  have hsp := deeds_sprung u.env u.start h0 pre
  generalize u.start.deeds u.env pre = n at *
  simp only [Store.call, Answer.encrypted.injEq] at hans
  obtain ⟨r, s', q1, q2, q3, -⟩ := Store.encrypt_ok (Prod.ext hans rfl)
  have hv : r.state.version = currentVersion := by
    obtain ⟨r2, g1, g2, -⟩ := hsp.load a
    rw [q1] at g1
    cases g1
    rcases g2 with rfl | ⟨-, hw⟩
    · simp [encryptState, Rec.new, Rec.state, SState.new] at q2
    obtain ⟨s0, evs, ⟨k, pre', c, dies, post, -, -, hset⟩, hh⟩ := hw.states _ (List.mem_cons_self ..)
    exact hh.identities.2.2.trans hset.identities.2.2
  obtain ⟨sc, body, g1, -, -, g2, g3, -, g4, -⟩ := encryptState_inner hS hv hpt q2
  refine ⟨by rw [Store.sending_ok q1, SState.sending, g1, g3, g4]; rfl, ?_⟩
  have : (n.deed u.env ⟨.call (.encrypt a pt), none⟩).st = (n.st.encrypt u.env a pt).2 := rfl
  rw [this, Store.sending_ok q3, ofStates_state, g2, g3, g4]
  rfl

/-- Invariant of a life. -/
structure Unused (u : User) (pre : List Deed) : Prop where
  drawn : ∀ a k i, (u.start.deeds u.env pre).st.sending a = some (k, i) → i.toNat ≤ pre.length ∧
    ∃ q w, q < (u.start.deeds u.env pre).pos ∧ u.env.rng q = some w ∧ k = u.env.C.basePub (clamp w)
  apart : ∀ a a' k i i', (u.start.deeds u.env pre).st.sending a = some (k, i) → (u.start.deeds u.env pre).st.sending a' = some (k, i') → a = a'
  past : ∀ pre' a pt cm, u.Sends pre' a pt cm → pre'.length < pre.length →
    (∃ q w, q < (u.start.deeds u.env pre).pos ∧ u.env.rng q = some w ∧ cm.inner.senderRatchetKey = u.env.C.basePub (clamp w)) ∧
    ∀ a' i, (u.start.deeds u.env pre).st.sending a' = some (cm.inner.senderRatchetKey, i) → cm.inner.struct.counter.toNat < i.toNat

theorem unused {u : User} (hS : StdSM u.env.S) (h0 : ∀ a, u.start.st.sessions a = none) (hsmall : ∀ a pt dies, ⟨.call (.encrypt a pt), dies⟩ ∈ u.life → pt.length < 2 ^ 63)
    (hF : FreshDraws u.env) (hN : u.NeverArchived) (hlen : u.life.length < 2 ^ 32) : ∀ (k : Nat) (pre post : List Deed), pre.length = k → u.life = pre ++ post → Unused u pre := by
  intro k
  induction k with
  | zero =>
    intro pre post hk hl
    have : pre = [] := List.length_eq_zero_iff.1 hk
    subst this
    have hn : ∀ a, (u.start.deeds u.env []).st.sending a = none := by
      intro a
      simp [Node.deeds, Store.sending, Store.load, h0, Rec.new, Rec.state, SState.new, SState.sending]
    refine ⟨fun a k i h => ?_, fun a a' k i i' h => ?_, fun pre' a pt cm _ h => ?_⟩
    · rw [hn] at h; cases h
    · rw [hn] at h; cases h
    · simp at h
  | succ k ih =>
    intro pre1 post hk hl
    obtain ⟨pre, d, rfl⟩ : ∃ pre d, pre1 = pre ++ [d] := by
      rcases List.eq_nil_or_concat pre1 with rfl | ⟨pre, d, rfl⟩
      · simp at hk
      · exact ⟨pre, d, by simp⟩
    have hk' : pre.length = k := by simpa using hk
    have hl' : u.life = pre ++ d :: post := by rw [hl]; simp
    have hlt : pre.length + 1 < 2 ^ 32 := by
      have : u.life.length = pre.length + (post.length + 1) := by rw [hl']; simp
      omega
    have I := ih pre (d :: post) hk' hl'
    obtain ⟨hpos, a0, hmv⟩ := deed_sending d (hN pre d post hl')
    rw [← deeds_append] at hpos hmv
    have apart' : ∀ a a' k i i', (u.start.deeds u.env (pre ++ [d])).st.sending a = some (k, i) → (u.start.deeds u.env (pre ++ [d])).st.sending a' = some (k, i') → a = a' := by
      have one : ∀ a' k i i', a' ≠ a0 → (u.start.deeds u.env (pre ++ [d])).st.sending a0 = some (k, i) → (u.start.deeds u.env (pre ++ [d])).st.sending a' = some (k, i') → a0 = a' := by
        intro a' k i i' hne h h'
        rw [(hmv a').1 hne] at h'
        have hm := (hmv a0).2
        rw [h] at hm
        generalize hx : (u.start.deeds u.env pre).st.sending a0 = x at hm
        cases hm with
        | same => exact I.apart _ _ _ _ _ hx h'
        | next e => exact I.apart _ _ _ _ _ (hx.trans e) h'
        | @fresh q w h1 h2 h3 =>
          obtain ⟨-, q', w', g1, g2, g3⟩ := I.drawn _ _ _ h'
          exact absurd g3 (hF q q' w w' (by omega) h3 g2)
      intro a a' k i i' h h'
      by_cases e : a = a0
      · by_cases e' : a' = a0
        · rw [e, e']
        · subst e; exact one a' k i i' e' h h'
      · by_cases e' : a' = a0
        · subst e'; exact (one a k i' i e h' h).symm
        · rw [(hmv a).1 e] at h
          rw [(hmv a').1 e'] at h'
          exact I.apart _ _ _ _ _ h h'
    have drawn' : ∀ a k i, (u.start.deeds u.env (pre ++ [d])).st.sending a = some (k, i) → i.toNat ≤ (pre ++ [d]).length ∧
        ∃ q w, q < (u.start.deeds u.env (pre ++ [d])).pos ∧ u.env.rng q = some w ∧ k = u.env.C.basePub (clamp w) := by
      intro a k i h
      have hm := (hmv a).2
      rw [h] at hm
      generalize hx : (u.start.deeds u.env pre).st.sending a = x at hm
      rw [List.length_append, List.length_singleton]
      cases hm with
      | same =>
        obtain ⟨g0, q, w, g1, g2, g3⟩ := I.drawn _ _ _ hx
        exact ⟨by omega, q, w, by omega, g2, g3⟩
      | @next k i e =>
        obtain ⟨g0, q, w, g1, g2, g3⟩ := I.drawn _ _ _ (hx.trans e)
        refine ⟨?_, q, w, by omega, g2, g3⟩
        rw [UInt32.toNat_add, show (1 : UInt32).toNat = 1 from rfl, Nat.mod_eq_of_lt (by omega)]
        omega
      | @fresh q w h1 h2 h3 => exact ⟨by simp, q, w, h2, h3, rfl⟩
    refine ⟨drawn', apart', fun pre' a pt cm hs hlt' => ?_⟩
    have hpt : pt.length < 2 ^ 63 := by
      obtain ⟨⟨post', h⟩, -⟩ := hs
      exact hsmall a pt none (by rw [h]; simp)
    by_cases hold : pre'.length < pre.length
    · obtain ⟨⟨q, w, g1, g2, g3⟩, hp⟩ := I.past pre' a pt cm hs hold
      refine ⟨⟨q, w, by omega, g2, g3⟩, fun a' i h => ?_⟩
      have hm := (hmv a').2
      rw [h] at hm
      generalize hx : (u.start.deeds u.env pre).st.sending a' = x at hm
      generalize hkey : cm.inner.senderRatchetKey = key at *
      cases hm with
      | same => exact hp _ _ hx
      | @next k i e =>
        have := hp _ _ (hx.trans e)
        obtain ⟨g0, -⟩ := I.drawn _ _ _ (hx.trans e)
        rw [UInt32.toNat_add, show (1 : UInt32).toNat = 1 from rfl, Nat.mod_eq_of_lt (by omega)]
        omega
      | @fresh q' w' h1 h2 h3 => exact absurd g3 (hF q' q w' w (by omega) h3 g2)
    · have hpre : pre' = pre ∧ d = ⟨.call (.encrypt a pt), none⟩ := by
        obtain ⟨⟨post', h⟩, -⟩ := hs
        rw [hl'] at h
        have hle : pre'.length = pre.length := by simp at hlt'; omega
        obtain ⟨h1, h2⟩ := List.append_inj h hle.symm
        exact ⟨h1.symm, (List.cons.inj h2).1⟩
      obtain ⟨rfl, rfl⟩ := hpre
      obtain ⟨p1, p2⟩ := sends_position hS h0 hpt hs
      obtain ⟨g0, q, w, g1, g2, g3⟩ := I.drawn _ _ _ p1
      refine ⟨⟨q, w, by omega, g2, g3⟩, fun a' i h => ?_⟩
      have := apart' _ _ _ _ _ p2 h
      subst this
      rw [p2] at h
      simp only [Option.some.injEq, Prod.mk.injEq, true_and] at h
      rw [← h, UInt32.toNat_add, show (1 : UInt32).toNat = 1 from rfl, Nat.mod_eq_of_lt (by omega)]
      omega

/-- C98: two messages that the user sends are never at the same position, if no message is decrypted with an archived session. -/
theorem C98_no_key_reuse_partial (u : User) (hS : StdSM u.env.S) (h0 : ∀ a, u.start.st.sessions a = none)
    (hsmall : ∀ a pt dies, ⟨.call (.encrypt a pt), dies⟩ ∈ u.life → pt.length < 2 ^ 63) (hF : FreshDraws u.env) (hN : u.NeverArchived) (hlen : u.life.length < 2 ^ 32)
    (pre1 : List Deed) (a1 : Addr) (pt1 : Bytes) (cm1 : CipherMsg) (h1 : u.Sends pre1 a1 pt1 cm1) (pre2 : List Deed) (a2 : Addr) (pt2 : Bytes) (cm2 : CipherMsg)
    (h2 : u.Sends pre2 a2 pt2 cm2) (hne : pre1 ≠ pre2) :
    ¬ (cm1.inner.senderRatchetKey = cm2.inner.senderRatchetKey ∧ cm1.inner.struct.counter = cm2.inner.struct.counter) := by
  have key : ∀ pre1 a1 pt1 cm1 pre2 a2 pt2 cm2, u.Sends pre1 a1 pt1 cm1 → u.Sends pre2 a2 pt2 cm2 → pre1.length < pre2.length →
      cm1.inner.senderRatchetKey = cm2.inner.senderRatchetKey → cm1.inner.struct.counter = cm2.inner.struct.counter → False := by
    intro pre1 a1 pt1 cm1 pre2 a2 pt2 cm2 h1 h2 hlt hk hc
    obtain ⟨post, hl⟩ := h2.1
    have I := unused hS h0 hsmall hF hN hlen _ pre2 _ rfl hl
    have hp := (sends_position hS h0 (hsmall a2 pt2 none (by rw [hl]; simp)) h2).1
    rw [← hk] at hp
    have := (I.past pre1 a1 pt1 cm1 h1 hlt).2 _ _ hp
    rw [hc] at this
    omega
  rintro ⟨hk, hc⟩
  obtain ⟨post1, hl1⟩ := h1.1
  obtain ⟨post2, hl2⟩ := h2.1
  rcases Nat.lt_trichotomy pre1.length pre2.length with h | h | h
  · exact key _ _ _ _ _ _ _ _ h1 h2 h hk hc
  · rw [hl1] at hl2
    exact hne (List.append_inj hl2 h).1
  · exact key _ _ _ _ _ _ _ _ h2 h1 h hk.symm hc.symm

/-! ### Where it fails, and an example -/

section
open Toy
set_option maxRecDepth 100000

/-- Bob with a random source that runs dry after eight reads. -/
def dryBob : Env := { bobEnv with rng := fun p => if p < 8 then bobEnv.rng p else none }

theorem dryBob_fresh : FreshDraws dryBob := by
  have key : ∀ p < 8, ∀ q < 8, p ≠ q → C.basePub (clamp ((bobEnv.rng p).getD (key 0))) ≠ C.basePub (clamp ((bobEnv.rng q).getD (key 0))) := by decide +kernel
  intro p q r r' hne hp hq
  have h1 : p < 8 := by
    refine Decidable.byContradiction fun h => ?_
    simp [dryBob, h] at hp
  have h2 : q < 8 := by
    refine Decidable.byContradiction fun h => ?_
    simp [dryBob, h] at hq
  have := key p h1 q h2 hne
  rw [show dryBob.rng p = bobEnv.rng p from if_pos h1] at hp
  rw [show dryBob.rng q = bobEnv.rng q from if_pos h2] at hq
  rw [hp, hq] at this
  exact this

/-- Bob gets Alice's first message, answers; she sets up a second session and writes in it, which archives the first; then messages of the first session arrive (Alice's newest session is
the second, her messages were delayed), which make the first current again; then an attacker delivers one of them a second time. -/
def replayLife : List Deed := [
  ⟨.call (.decryptPreKey alice msg1), none⟩, ⟨.call (.encrypt alice [9, 9]), none⟩, ⟨.storePreKey 10 oneTime2, none⟩, ⟨.call (.decryptPreKey alice n1), none⟩,
  ⟨.call (.encrypt alice [31]), none⟩, ⟨.call (.decrypt alice msg3), none⟩, ⟨.call (.encrypt alice [41]), none⟩, ⟨.call (.decrypt alice msg4), none⟩,
  ⟨.call (.decrypt alice msg4), none⟩, ⟨.call (.encrypt alice [42]), none⟩]

def replayBob : User := ⟨dryBob, ⟨bobStore, 0⟩, replayLife⟩

/-- The results of the two encryptions. -/
def reused1 := (((⟨bobStore, 0⟩ : Node).deeds dryBob (replayLife.take 6)).st.encrypt dryBob alice [41]).1
def reused2 := (((⟨bobStore, 0⟩ : Node).deeds dryBob (replayLife.take 9)).st.encrypt dryBob alice [42]).1

/-- What they are made with. -/
def reusedKey : MsgKeys := match (recOf ((⟨bobStore, 0⟩ : Node).deeds dryBob (replayLife.take 6)).st alice).state.senderChain with
  | some c => c.chainKey.msgKeys C
  | none => ⟨[], [], [], 0⟩

/-- **C98 fails** for a user who gets a message of an archived session and then a message a second time: it encrypts two different plaintexts, for the same address, with the same
message key (and nonce), and both messages carry the same ratchet key and counter. -/
theorem C98_replay_reuse_false : ∃ u : User, StdSM u.env.S ∧ (∀ a, u.start.st.sessions a = none) ∧ (∀ a pt dies, ⟨.call (.encrypt a pt), dies⟩ ∈ u.life → pt.length < 2 ^ 63) ∧
    FreshDraws u.env ∧ u.life.length < 2 ^ 32 ∧
    ∃ a pre1 pt1 cm1 pre2 pt2 cm2 k b1 b2, u.Sends pre1 a pt1 cm1 ∧ u.Sends pre2 a pt2 cm2 ∧ pre1 ≠ pre2 ∧ pt1 ≠ pt2 ∧
      cm1.inner.senderRatchetKey = cm2.inner.senderRatchetKey ∧ cm1.inner.struct.counter = cm2.inner.struct.counter ∧
      cm1.inner.struct.cipherText = some b1 ∧ encryptBody u.env.C k pt1 = .ok b1 ∧ cm2.inner.struct.cipherText = some b2 ∧ encryptBody u.env.C k pt2 = .ok b2 := by
  have key : (match reused1, reused2, encryptBody C reusedKey [41], encryptBody C reusedKey [42] with
      | .ok c1, .ok c2, .ok b1, .ok b2 => decide (c1.inner.senderRatchetKey = c2.inner.senderRatchetKey ∧ c1.inner.struct.counter = c2.inner.struct.counter ∧
          c1.inner.struct.cipherText = some b1 ∧ c2.inner.struct.cipherText = some b2)
      | _, _, _, _ => false) = true := by decide +kernel
  refine ⟨replayBob, .inl rfl, fun _ => rfl, ?_, dryBob_fresh, by decide, alice, replayLife.take 6, [41], ?_⟩
  · intro a pt dies h
    simp only [replayBob, replayLife, List.mem_cons, Deed.mk.injEq, Errand.call.injEq, Call.encrypt.injEq, reduceCtorEq, false_and, false_or, List.not_mem_nil, or_false] at h
    rcases h with h | h | h | h <;> rw [h.1.2] <;> decide
  cases h1 : reused1 with
  | err e => simp [h1] at key
  | panic => simp [h1] at key
  | ok c1 =>
  cases h2 : reused2 with
  | err e => simp [h1, h2] at key
  | panic => simp [h1, h2] at key
  | ok c2 =>
  cases h3 : encryptBody C reusedKey [41] with
  | err e => simp [h1, h2, h3] at key
  | panic => simp [h1, h2, h3] at key
  | ok b1 =>
  cases h4 : encryptBody C reusedKey [42] with
  | err e => simp [h1, h2, h3, h4] at key
  | panic => simp [h1, h2, h3, h4] at key
  | ok b2 =>
  simp only [h1, h2, h3, h4, decide_eq_true_eq] at key
  obtain ⟨k1, k2, k3, k4⟩ := key
  exact ⟨c1, replayLife.take 9, [42], c2, reusedKey, b1, b2, ⟨⟨replayLife.drop 7, rfl⟩, congrArg Answer.encrypted h1⟩, ⟨⟨[], rfl⟩, congrArg Answer.encrypted h2⟩,
    by intro h; have := congrArg List.length h; simp [replayLife] at this, by decide, k1, k2, k3, h3, k4, h4⟩

theorem byCurrent_decrypt {E : Env} {n : Node} {a : Addr} {m : SignalMsg} (h : (decryptWithState E (E.rng n.pos) (recOf n.st a).state m).1.isOk = true) :
    n.ByCurrent E (.call (.decrypt a m)) := by
  intro r hl _
  have : recOf n.st a = r := by unfold recOf; rw [hl]
  rw [this] at h
  exact h

theorem byCurrent_decryptPreKey {E : Env} {n : Node} {a : Addr} {m : PreKeyMsg}
    (h : (decryptWithState E (E.rng n.pos) (process E n.st.identities n.st.preKeys n.st.signedPreKeys a (recOf n.st a) m).2.1.state m.message).1.isOk = true) :
    n.ByCurrent E (.call (.decryptPreKey a m)) := by
  intro r id r1 effs hl hp _
  have : recOf n.st a = r := by unfold recOf; rw [hl]
  rw [this, hp] at h
  exact h

/-- A life without archived sessions in use: Bob answers Alice's first message twice, dies while he encrypts a third answer, gets another message (and starts a new sending chain),
answers it twice, and gets the start of a new session. -/
def calmBob : User := ⟨dryBob, ⟨bobStore, 0⟩, [
  ⟨.call (.decryptPreKey alice msg1), none⟩, ⟨.call (.encrypt alice [9, 9]), none⟩, ⟨.call (.encrypt alice [1]), none⟩, ⟨.call (.encrypt alice [2]), some 1⟩,
  ⟨.call (.decrypt alice msg3), none⟩, ⟨.call (.encrypt alice [3]), none⟩, ⟨.call (.encrypt alice [4]), none⟩, ⟨.storePreKey 10 oneTime2, none⟩,
  ⟨.call (.decryptPreKey alice n1), none⟩, ⟨.call (.encrypt alice [5]), none⟩]⟩

/-- C98 applies to it: the hypotheses hold, and it sends five messages. -/
example : StdSM calmBob.env.S ∧ (∀ a, calmBob.start.st.sessions a = none) ∧ FreshDraws calmBob.env ∧ calmBob.NeverArchived ∧ calmBob.life.length < 2 ^ 32 ∧
    ∀ x ∈ [(1, [9, 9]), (2, [1]), (5, [3]), (6, [4]), (9, [5])], ∃ cm, calmBob.Sends (calmBob.life.take x.1) alice x.2 cm := by
  refine ⟨.inl rfl, fun _ => rfl, dryBob_fresh, ?_, by decide, ?_⟩
  · intro pre d post h
    have e1 : d = (calmBob.life.drop pre.length).headD ⟨.generate, none⟩ := by rw [h]; simp
    have e2 : pre = calmBob.life.take pre.length := by rw [h]; simp
    have e3 : pre.length < 10 := by
      have : calmBob.life.length = 10 := rfl
      rw [h] at this; simp at this; omega
    generalize pre.length = k at *
    subst e1 e2
    have : k = 0 ∨ k = 1 ∨ k = 2 ∨ k = 3 ∨ k = 4 ∨ k = 5 ∨ k = 6 ∨ k = 7 ∨ k = 8 ∨ k = 9 := by omega
    rcases this with rfl | rfl | rfl | rfl | rfl | rfl | rfl | rfl | rfl | rfl
    · exact byCurrent_decryptPreKey (by decide +kernel)
    · trivial
    · trivial
    · trivial
    · exact byCurrent_decrypt (by decide +kernel)
    · trivial
    · trivial
    · trivial
    · exact byCurrent_decryptPreKey (by decide +kernel)
    · trivial
  · have ok : ∀ k pt, (((calmBob.start.deeds calmBob.env (calmBob.life.take k)).st.encrypt calmBob.env alice pt).1.isOk) = true →
        (∃ post, calmBob.life = calmBob.life.take k ++ ⟨.call (.encrypt alice pt), none⟩ :: post) → ∃ cm, calmBob.Sends (calmBob.life.take k) alice pt cm := by
      intro k pt h h'
      cases hx : ((calmBob.start.deeds calmBob.env (calmBob.life.take k)).st.encrypt calmBob.env alice pt).1 with
      | ok cm => exact ⟨cm, h', congrArg Answer.encrypted hx⟩
      | err e => rw [hx] at h; simp [Res.isOk] at h
      | panic => rw [hx] at h; simp [Res.isOk] at h
    intro i hi
    simp only [List.mem_cons, List.not_mem_nil, or_false] at hi
    rcases hi with rfl | rfl | rfl | rfl | rfl
    all_goals exact ok _ _ (by decide +kernel) ⟨_, rfl⟩
end

end Verif
