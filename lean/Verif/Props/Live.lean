import Verif.Model.LiveWorld
import Verif.Props.Conversation
/-
C77: conversations of users who keep their sessions in the in-memory store of tests/stores.go.
-/
set_option linter.unusedSimpArgs false
namespace Verif
open Talk (Side Party Conv Note Event Outcome)

/-- What the serialising store `st` and the live store `lv` have in common for one address: one session, no archived ones. -/
structure LiveRel (a : Addr) (st : Store) (lv : LiveStore) : Prop where
  identities : lv.identities = st.identities
  preKeys : lv.preKeys = st.preKeys
  signedPreKeys : lv.signedPreKeys = st.signedPreKeys
  one : ∃ r, st.load a = .ok r ∧ (lv.load a).state = r.state ∧ r.prev = [] ∧ (lv.load a).prev = [] ∧ (r.fresh = true → (lv.load a).fresh = true)
  present : (st.sessions a).isSome → (lv.sessions a).isSome

theorem LiveStore.load_upd (sess : Addr → Option Rec) (ids pk spk) (a : Addr) (r : Rec) :
    LiveStore.load ⟨upd sess a (some r), ids, pk, spk⟩ a = r := by simp [LiveStore.load, upd]

theorem ofStates_nil_prev (s : SState) : (Rec.ofStates s []).prev = [] := rfl

theorem prev_nil_of_states {r : Rec} (h : r.prev = []) : r.prevStates = [] := by simp [Rec.prevStates, h]

/-- Both stores after both stored a record with the same state. -/
theorem LiveRel.mk' {a : Addr} {st' : Store} {lv' : LiveStore} {r r' : Rec} (h1 : lv'.identities = st'.identities) (h2 : lv'.preKeys = st'.preKeys)
    (h3 : lv'.signedPreKeys = st'.signedPreKeys) (hl : st'.load a = .ok (Rec.ofStates r.state r.prevStates)) (hp : r.prev = []) (hp' : r'.prev = [])
    (hs : r'.state = r.state) (hlv : lv'.sessions a = some r') : LiveRel a st' lv' := by
  refine ⟨h1, h2, h3, ⟨_, hl, ?_, ?_, ?_, ?_⟩, fun _ => by rw [hlv]; rfl⟩
  · simp [LiveStore.load, hlv, hs, ofStates_state]
  · rw [prev_nil_of_states hp]; rfl
  · simp [LiveStore.load, hlv, hp']
  · intro h; simp [Rec.ofStates] at h

theorem LiveRel.encrypt {a : Addr} {st st' : Store} {lv : LiveStore} (h : LiveRel a st lv) {E : Env} {text : Bytes} {cm : CipherMsg}
    (he : st.encrypt E a text = (.ok cm, st')) : ∃ lv', lv.encrypt E a text = (.ok cm, lv') ∧ LiveRel a st' lv' := by
  obtain ⟨r, s', hl, h1, h2, -, h4, h5, h6⟩ := Store.encrypt_ok he
  obtain ⟨r0, hl0, hs, hp, hp', -⟩ := h.one
  rw [hl] at hl0; cases hl0
  rw [← hs] at h1
  have hset : ∀ q : Rec, (q.set q.cur s').state = s' ∧ (q.set q.cur s').prev = q.prev := fun q => ⟨by simp [Rec.state], rfl⟩
  refine ⟨_, by simp only [LiveStore.encrypt, encryptRec, h1]; rfl, ?_⟩
  refine LiveRel.mk' (r := r.set r.cur s') (r' := (lv.load a).set (lv.load a).cur s') ?_ ?_ ?_ (by rw [(hset r).1]; exact h2) (by rw [(hset r).2, hp])
    (by rw [(hset _).2, hp']) (by rw [(hset r).1, (hset _).1]) ?_ <;>
    simp only [LiveStore.finish, List.foldl, LiveStore.apply]
  · rw [h6, h.identities]
  · rw [h4, h.preKeys]
  · rw [h5, h.signedPreKeys]
  · simp [upd]

/-- Decrypting with two records that hold the same one state. -/
theorem decryptWithRecord_same {E : Env} {pos : Nat} {r q : Rec} {m : SignalMsg} (hr : r.prev = []) (hq : q.prev = []) (hs : q.state = r.state) :
    (decryptWithRecord E pos q m).1 = (decryptWithRecord E pos r m).1 ∧
    (decryptWithRecord E pos q m).2.1.state = (decryptWithRecord E pos r m).2.1.state ∧
    (decryptWithRecord E pos q m).2.1.prev = [] ∧ (decryptWithRecord E pos r m).2.1.prev = [] ∧
    (decryptWithRecord E pos q m).2.1.fresh = q.fresh ∧
    (decryptWithRecord E pos q m).2.2 = (decryptWithRecord E pos r m).2.2 := by
  rw [decryptWithRecord_single hr, decryptWithRecord_single hq, hs]
  exact ⟨rfl, by simp [Rec.state], hq, hr, rfl, rfl⟩

theorem LiveRel.decrypt {a : Addr} {st st' : Store} {lv : LiveStore} (h : LiveRel a st lv) {E : Env} {pos pos' : Nat} {m : SignalMsg} {x : Bytes × MsgKeys}
    (he : st.decrypt E pos a m = (.ok x, st', pos')) : ∃ lv', lv.decrypt E pos a m = (.ok x, lv', pos') ∧ LiveRel a st' lv' := by
  obtain ⟨r, r', hl, hsome, h1, h2, -, h4, h5, h6⟩ := Store.decrypt_ok he
  obtain ⟨r0, hl0, hs, hp, hp', -⟩ := h.one
  rw [hl] at hl0; cases hl0
  have hsm := h.present hsome
  obtain ⟨q, hq⟩ := Option.isSome_iff_exists.1 hsm
  have hlq : lv.load a = q := by simp [LiveStore.load, hq]
  rw [hlq] at hs hp'
  obtain ⟨e1, e2, e3, e4, -, e5⟩ := decryptWithRecord_same (E := E) (pos := pos) (m := m) hp hp' hs
  rw [h1] at e1 e2 e4 e5
  generalize hd : decryptWithRecord E pos q m = y at *
  obtain ⟨y1, q', y3⟩ := y
  dsimp only at e1 e2 e3 e4 e5
  subst e1 e5
  refine ⟨_, by simp only [LiveStore.decrypt, hq, decryptRec, hd]; rfl, ?_⟩
  refine LiveRel.mk' (r := r') (r' := q') ?_ ?_ ?_ h2 e4 e3 e2 ?_ <;> simp only [LiveStore.finish, List.foldl, LiveStore.apply]
  · rw [h6, h.identities, e2]
  · rw [h4, h.preKeys]
  · rw [h5, h.signedPreKeys]
  · simp [upd]

/-- A refused message that leaves the state alone leaves the stores alone. -/
theorem LiveRel.decrypt_err {a : Addr} {st : Store} {lv : LiveStore} (h : LiveRel a st lv) {E : Env} {pos : Nat} {m : SignalMsg} {r : Rec} {e : Err}
    (hsome : (st.sessions a).isSome) (hl : st.load a = .ok r) (hd : decryptWithState E (E.rng pos) r.state m = (.err e, r.state, false)) :
    ∃ lv', lv.decrypt E pos a m = (.err .noValidSessions, lv', pos) ∧ LiveRel a st lv' := by
  obtain ⟨r0, hl0, hs, hp, hp', hf⟩ := h.one
  rw [hl] at hl0; cases hl0
  obtain ⟨q, hq⟩ := Option.isSome_iff_exists.1 (h.present hsome)
  have hlq : lv.load a = q := by simp [LiveStore.load, hq]
  rw [hlq] at hs hp' hf
  have hdq : decryptWithRecord E pos q m = (.err .noValidSessions, q.set q.cur r.state, pos) := by
    rw [decryptWithRecord_single hp', hs, hd]; rfl
  refine ⟨_, by simp only [LiveStore.decrypt, hq, decryptRec, hdq]; rfl, ?_⟩
  refine ⟨h.identities, h.preKeys, h.signedPreKeys, ⟨r, hl, ?_, hp, ?_, ?_⟩, fun _ => ?_⟩ <;>
    simp [LiveStore.finish, LiveStore.load, upd, Rec.state, hp']
  exact hf

/-- Processing a prekey message with two records that hold the same one state, when nothing is archived. -/
theorem process_same {E : Env} {ids : Addr → Option Key32} {pk spk : UInt32 → Option IdKeyPair} {a : Addr} {m : PreKeyMsg} {r q r1 : Rec} {id : OptU32}
    (hr : r.prev = []) (hq : q.prev = []) (hs : q.state = r.state) (hf : r.fresh = true → q.fresh = true)
    (hp : process E ids pk spk a r m = (.ok (some id), r1, [.saveIdentity a (some m.identityKey)])) (h1 : r1.prev = []) :
    ∃ q1, process E ids pk spk a q m = (.ok (some id), q1, [.saveIdentity a (some m.identityKey)]) ∧ q1.prev = [] ∧ q1.state = r1.state ∧
      (r1.fresh = true → q1.fresh = true) := by
  unfold process at hp ⊢
  by_cases ht : E.trusted ids a m.identityKey = false
  · rw [if_pos ht] at hp; simp at hp
  · rw [if_neg ht] at hp ⊢
    have hhas : ∀ v b, q.hasSessionState v b = r.hasSessionState v b := by
      intro v b; simp [Rec.hasSessionState, hs, Rec.prevStates, hr, hq]
    have hv3 : ∃ q1, processV3 E pk spk q m = (.ok (some id), q1) ∧ q1.prev = [] ∧ q1.state = r1.state ∧ (r1.fresh = true → q1.fresh = true) := by
      cases hv : processV3 E pk spk r m with
      | mk res z =>
        rw [hv] at hp
        cases res with
        | err e => simp at hp
        | panic => simp at hp
        | ok i =>
          simp only [Prod.mk.injEq, Res.ok.injEq, and_true] at hp
          obtain ⟨rfl, rfl⟩ := hp
          unfold processV3 at hv ⊢
          rw [hhas]
          by_cases hh : r.hasSessionState m.struct.version (serPub m.baseKey) = true
          · rw [if_pos hh] at hv ⊢
            simp only [Prod.mk.injEq, Res.ok.injEq, Option.some.injEq] at hv
            obtain ⟨rfl, rfl⟩ := hv
            exact ⟨q, rfl, hq, hs, hf⟩
          · rw [if_neg hh] at hv ⊢
            cases hk : spk m.struct.signedPreKeyId with
            | none => simp [hk] at hv
            | some k =>
              simp only [hk] at hv ⊢
              have hot : m.struct.preKeyId = none ∨ ∃ i kp, m.struct.preKeyId = some i ∧ pk i.value = some kp := by
                cases hm : m.struct.preKeyId with
                | none => exact .inl rfl
                | some i =>
                  cases hpk : pk i.value with
                  | none => simp [hm, hpk] at hv
                  | some kp => exact .inr ⟨i, kp, rfl, hpk⟩
              rcases hot with hm | ⟨i, kp, hm, hpk⟩
              on_goal 1 => simp only [hm] at hv ⊢
              on_goal 2 => simp only [hm, hpk] at hv ⊢
              all_goals
                generalize calculateReceiverSession E.C _ = ks at hv ⊢
                cases ks with
                | err e => simp at hv
                | panic => simp at hv
                | ok keys =>
                  simp only [Prod.mk.injEq] at hv ⊢
                  obtain ⟨hv1, hv2⟩ := hv
                  have hfr : r.fresh = true := by
                    apply Classical.byContradiction
                    intro hfr
                    rw [if_neg hfr] at hv2
                    rw [← hv2] at h1
                    simp only [Rec.set, Rec.archiveCurrentState, Rec.promote, hr] at h1
                    simp [archivedStatesMaxLength] at h1
                  rw [if_pos hfr] at hv2
                  rw [if_pos (hf hfr)]
                  refine ⟨_, ⟨hv1, rfl⟩, hq, ?_, ?_⟩
                  · rw [← hv2]; simp [Rec.state] at hs ⊢; simp [hs]
                  · rw [← hv2]; exact hf
    obtain ⟨q1, e1, e2⟩ := hv3
    exact ⟨q1, by rw [e1], e2⟩

theorem LiveRel.decryptPreKey {a : Addr} {st st' : Store} {lv : LiveStore} (h : LiveRel a st lv) {E : Env} {pos pos' : Nat} {m : PreKeyMsg} {x : Bytes × MsgKeys}
    (he : st.decryptPreKey E pos a m = (.ok x, st', pos')) {s1 : SState} (hone : st'.load a = .ok (Rec.ofStates s1 [])) :
    ∃ lv', lv.decryptPreKey E pos a m = (.ok x, lv', pos') ∧ LiveRel a st' lv' := by
  obtain ⟨r, r1, r', id, hl, h1, h2, h3, -, h5, h6, h7⟩ := Store.decryptPreKey_ok he
  obtain ⟨r0, hl0, hs, hp, hp', hf⟩ := h.one
  rw [hl] at hl0; cases hl0
  have hps : r'.prevStates = [] := by
    rw [h3, Res.ok.injEq] at hone
    have := congrArg Rec.prevStates hone
    rwa [ofStates_prev, ofStates_prev] at this
  have hr'p : r'.prev = [] := by simpa [Rec.prevStates] using hps
  -- decrypting does not shorten the list of archived states, so nothing was archived
  have hr1 : r1.prev = [] := by
    rcases decryptWithRecord_cases E pos r1 m.message with ⟨x', s', d, -, hc⟩ | ⟨pre, a', post, x', s', d, r0, pos0, -, -, -, -, hc⟩ | ⟨-, hc⟩ | ⟨_, _, hc, -⟩
    · rw [h2] at hc; simp only [Prod.mk.injEq] at hc; rw [hc.2.1] at hr'p; exact hr'p
    · rw [h2] at hc
      simp only [Prod.mk.injEq] at hc
      rw [hc.2.1] at hr'p
      exfalso
      revert hr'p
      simp only [promoteFound, Rec.promote]
      split
      · rename_i hlong
        intro he
        have := congrArg List.length he
        simp only [List.length_dropLast, List.length_nil] at this
        simp only [archivedStatesMaxLength] at hlong
        omega
      · simp
    · rw [h2] at hc; simp at hc
    · rw [h2] at hc; simp at hc
  obtain ⟨q1, g1, g2, g3, -⟩ := process_same hp hp' hs hf h1 hr1
  rw [← h.identities, ← h.preKeys, ← h.signedPreKeys] at g1
  obtain ⟨e1, e2, e3, e4, -, e5⟩ := decryptWithRecord_same (E := E) (pos := pos) (m := m.message) hr1 g2 g3
  rw [h2] at e1 e2 e4 e5
  generalize hd : decryptWithRecord E pos q1 m.message = y at *
  obtain ⟨y1, q', y3⟩ := y
  dsimp only at e1 e2 e3 e4 e5
  subst e1 e5
  by_cases ho : id.isEmpty
  · refine ⟨_, by simp only [LiveStore.decryptPreKey, decryptPreKeyRec, g1, hd, ho, if_true]; rfl, ?_⟩
    refine LiveRel.mk' (r := r') (r' := q') ?_ ?_ ?_ h3 e4 e3 e2 ?_ <;> simp only [LiveStore.finish, List.foldl, LiveStore.apply, List.cons_append, List.nil_append]
    · rw [h7, h.identities]
    · rw [h6, h.preKeys, if_pos ho]
    · rw [h5, h.signedPreKeys]
    · simp [upd]
  · refine ⟨_, by simp only [LiveStore.decryptPreKey, decryptPreKeyRec, g1, hd]; rw [if_neg ho], ?_⟩
    refine LiveRel.mk' (r := r') (r' := q') ?_ ?_ ?_ h3 e4 e3 e2 ?_ <;> simp only [LiveStore.finish, List.foldl, LiveStore.apply, List.cons_append, List.nil_append]
    · rw [h7, h.identities]
    · rw [h6, h.preKeys, if_neg ho]
    · rw [h5, h.signedPreKeys]
    · simp [upd]

theorem LiveRel.decryptPreKey_err {a : Addr} {st : Store} {lv : LiveStore} (h : LiveRel a st lv) {E : Env} {pos : Nat} {m : PreKeyMsg} {r : Rec} {e : Err}
    {id : OptU32} (hl : st.load a = .ok r)
    (hp : process E st.identities st.preKeys st.signedPreKeys a r m = (.ok (some id), r, [.saveIdentity a (some m.identityKey)]))
    (hd : decryptWithState E (E.rng pos) r.state m.message = (.err e, r.state, false)) :
    ∃ lv', lv.decryptPreKey E pos a m = (.err .noValidSessions, lv', pos) ∧
      LiveRel a { st with identities := upd st.identities a (some m.identityKey) } lv' := by
  obtain ⟨r0, hl0, hs, hp0, hp', hf⟩ := h.one
  rw [hl] at hl0; cases hl0
  obtain ⟨q1, g1, g2, g3, g4⟩ := process_same hp0 hp' hs hf hp hp0
  rw [← h.identities, ← h.preKeys, ← h.signedPreKeys] at g1
  have hdq : decryptWithRecord E pos q1 m.message = (.err .noValidSessions, q1.set q1.cur r.state, pos) := by
    rw [decryptWithRecord_single g2, g3, hd]; rfl
  refine ⟨_, by simp only [LiveStore.decryptPreKey, decryptPreKeyRec, g1, hdq]; rfl, ?_⟩
  refine ⟨?_, h.preKeys, h.signedPreKeys, ⟨r, hl, ?_, hp0, ?_, ?_⟩, fun _ => ?_⟩ <;>
    simp [LiveStore.finish, LiveStore.apply, LiveStore.load, upd, Rec.state, g2, h.identities]
  exact g4

/-- Processing a bundle when there is no session yet. -/
theorem LiveRel.processBundle {a : Addr} {st st' : Store} {lv : LiveStore} (hids : lv.identities = st.identities) (hpk : lv.preKeys = st.preKeys)
    (hspk : lv.signedPreKeys = st.signedPreKeys) (hn : st.sessions a = none) (hnl : lv.sessions a = none) {E : Env} {pos pos' : Nat} {b : Bundle}
    (he : st.processBundle E pos a b = (.ok (), st', pos')) : ∃ lv', lv.processBundle E pos a b = (.ok (), lv', pos') ∧ LiveRel a st' lv' := by
  obtain ⟨r, spk, r', h1, hl, h2, h3, -, h5, h6, h7⟩ := Store.processBundle_ok he
  simp only [Store.load, hn, Res.ok.injEq] at hl
  subst hl
  have hll : lv.load a = Rec.new := by simp [LiveStore.load, hnl]
  have hp : r'.prev = [] := by
    obtain ⟨_, _, _, _, _, -, -, -, -, -, hr, -, -⟩ := buildFromBundle_ok h2
    rw [hr]; rfl
  rw [← hids] at h1
  refine ⟨_, by simp only [LiveStore.processBundle, h1, hll, h2]; rfl, ?_⟩
  refine LiveRel.mk' (r := r') (r' := r') ?_ ?_ ?_ h3 hp hp rfl ?_ <;> simp only [LiveStore.finish, List.foldl, LiveStore.apply]
  · rw [h7, hids]
  · rw [h5, hpk]
  · rw [h6, hspk]
  · simp [upd]

/-! ### Conversations -/

/-- A message of a turn that the recipient knows and refuses leaves the recipient's session as it is. -/
theorem Inv.refused_known {X : Setup} (hX : X.Ok) (hcl : X.clean) {w : World} {c : Conv} {es : Nat → Key32} {left : Nat} (h : Inv X w c es (left + 1))
    {p : Packet} {n : Note} (hp : PacketFor X es c (n.sender, p) n) (hv : (c.party n.sender.peer).receive n.turn n.number = .refused)
    (hg : ¬ ((∀ x ∈ (c.party n.sender.peer).inbox, x.1 ≠ n.turn) ∧ n.number > 5000)) :
    ∃ r e, (w.node n.sender.peer).st.load (X.addr n.sender) = .ok r ∧ ((w.node n.sender.peer).st.sessions (X.addr n.sender)).isSome ∧ r.prev = [] ∧
      ((∃ b m, p = .signal b ∧ newSignalMessageFromBytes X.S b = .ok m ∧
          decryptWithState (X.env n.sender.peer) ((X.env n.sender.peer).rng (w.node n.sender.peer).pos) r.state m = (.err e, r.state, false)) ∨
       (∃ b pm id, p = .preKey b ∧ newPreKeyMessageFromBytes X.P X.S b = .ok pm ∧
          process (X.env n.sender.peer) (w.node n.sender.peer).st.identities (w.node n.sender.peer).st.preKeys (w.node n.sender.peer).st.signedPreKeys
            (X.addr n.sender) r pm = (.ok (some id), r, [.saveIdentity (X.addr n.sender) (some pm.identityKey)]) ∧
          decryptWithState (X.env n.sender.peer) ((X.env n.sender.peer).rng (w.node n.sender.peer).pos) r.state pm.message = (.err e, r.state, false))) := by
  obtain ⟨sender, k, i, text⟩ := n
  obtain ⟨-, hpar, hsent, hk0, hop⟩ := hp
  simp only at hpar hsent hk0 hop hv hg ⊢
  obtain ⟨s, rfl⟩ : ∃ s : Side, sender = s.peer := ⟨sender.peer, (peer_peer sender).symm⟩
  simp only [peer_peer] at hop hv hg ⊢
  obtain ⟨st, hh, hb⟩ := h.party s
  -- the turn is remembered
  obtain ⟨x, hf⟩ : ∃ x, (c.party s).inbox.find? (fun x => x.1 == k) = some x := by
    cases hf : (c.party s).inbox.find? (fun x => x.1 == k) with
    | some x => exact ⟨x, rfl⟩
    | none =>
      exfalso
      have hnone : ∀ x ∈ (c.party s).inbox, x.1 ≠ k := by
        intro x hx; have := List.find?_eq_none.1 hf x hx; simpa using this
      simp only [Party.receive, hf] at hv
      split at hv
      · split at hv
        · cases hv
        · rename_i ha
          refine hg ⟨hnone, ?_⟩
          simp only [Window.accept, Window.empty, Window.counter, Talk.limits] at ha
          simp at ha
          omega
      · cases hv
  have hxk : x.1 = k := by have := List.find?_some hf; simpa using this
  have hmem := List.mem_of_find?_eq_some hf
  have hlev := (hh.levels x hmem).1
  have hturn : (c.party s).turn ≠ 0 := by omega
  obtain ⟨ps, hrdy, hclean⟩ := hb.ready hturn
  rw [hclean hcl] at hrdy
  have hd : ∀ x ∈ (c.party s).inbox, X.C.basePub (es x.1) = X.C.basePub (es k) → x.1 = k := by
    intro x hx he
    obtain ⟨h1, h2⟩ := hh.levels x hx
    have hns := h.near s
    have hparS := h.parity s
    have hpl := par_lt s
    rw [par_peer] at hpar
    exact h.dist s.peer x.1 k (by rw [par_peer]; omega) (by rw [par_peer]; exact hpar) (by omega) hsent he
  have key : ∀ m, Honest X.C X.S X.k0 es (X.ident s.peer) (X.ident s) k i text m →
      ∃ e, decryptWithState (X.env s) ((X.env s).rng (w.node s).pos) st m = (.err e, st, false) := by
    intro m hm
    have hold := hh.receive_old (hX.hC s) (hX.hS s) hm ((X.env s).rng (w.node s).pos) hd hf
    simp only [Party.receive, hf] at hv
    cases ha : Window.accept Talk.limits x.2 i with
    | some qw => rw [ha] at hv; cases hv
    | none => rw [ha] at hold; exact hold
  rcases hop with ⟨b, m, rfl, -, hparse, hon⟩ | ⟨hsa, b, pm, rfl, hparse, hon, hann⟩
  · obtain ⟨e, he⟩ := key m hon
    exact ⟨Rec.ofStates st [], e, hrdy.load, hrdy.isSome, rfl, .inl ⟨b, m, rfl, hparse, by rw [ofStates_state]; exact he⟩⟩
  · have hs : s = .bob := by cases s with
      | alice => simp [Side.peer] at hsa
      | bob => rfl
    subst hs
    obtain ⟨e, he⟩ := key pm.message hon
    have htrust := hX.trust _ (h.ident.imp_left And.right)
    refine ⟨Rec.ofStates st [], e, hrdy.load, hrdy.isSome, rfl, .inr ⟨b, pm, OptU32.empty, rfl, hparse, ?_, by rw [ofStates_state]; exact he⟩⟩
    refine (C15_repeated_preKey_message _ _ _ _ 0 _ _ _ ?_ (by rw [hann.identity]; exact htrust)).1
    refine ⟨st, by simp [ofStates_state], by rw [hh.version, hann.version], ?_⟩
    rcases hb with ⟨-, -, -, -, hb, -⟩ | ⟨-, hb, -⟩
    · rw [hb, hann.base]
    · exact absurd hb hturn

/-- Both worlds agree. -/
structure LiveWorldRel (addr : Side → Addr) (w : World) (l : LiveWorld) : Prop where
  node : ∀ s, LiveRel (addr s.peer) (w.node s).st (l.node s).st
  pos : ∀ s, (l.node s).pos = (w.node s).pos
  wire : l.wire = w.wire

theorem LiveWorldRel.upd {addr : Side → Addr} {w : World} {l : LiveWorld} (h : LiveWorldRel addr w l) (s : Side) {n : Node} {n' : LiveNode}
    (hn : LiveRel (addr s.peer) n.st n'.st) (hp : n'.pos = n.pos) (x : List (Side × Packet)) :
    LiveWorldRel addr ⟨upd w.node s n, x⟩ ⟨Verif.upd l.node s n', x⟩ := by
  refine ⟨fun t => ?_, fun t => ?_, rfl⟩
  · by_cases e : t = s
    · subst e; simpa [Verif.upd] using hn
    · simpa [Verif.upd, e] using h.node t
  · by_cases e : t = s
    · subst e; simpa [Verif.upd] using hp
    · simpa [Verif.upd, e] using h.pos t

theorem Res.map_eq_ok {α β : Type} {f : α → β} {x : Res α} {y : β} (h : x.map f = .ok y) : ∃ z, x = .ok z ∧ f z = y := by
  cases x with
  | ok z => simp only [Res.map, Res.ok.injEq] at h; exact ⟨z, rfl, h⟩
  | err e => cases h
  | panic => cases h

theorem LiveRel.say {a : Addr} {n n1 : Node} {l : LiveNode} (h : LiveRel a n.st l.st) (hp : l.pos = n.pos) {E : Env} {text : Bytes} {p : Packet}
    (hs : n.say E a text = (.ok p, n1)) : ∃ l1, l.say E a text = (.ok p, l1) ∧ LiveRel a n1.st l1.st ∧ l1.pos = n1.pos := by
  unfold Node.say at hs
  cases he : n.st.encrypt E a text with
  | mk res st' =>
    rw [he] at hs
    cases res with
    | err e => simp at hs
    | panic => simp at hs
    | ok cm =>
      simp only [Prod.mk.injEq] at hs
      obtain ⟨hs1, rfl⟩ := hs
      obtain ⟨lv', h1, h2⟩ := h.encrypt he
      exact ⟨⟨lv', l.pos⟩, by simp only [LiveNode.say, h1, hs1], h2, hp⟩

theorem LiveRel.hear {a : Addr} {n n1 : Node} {l : LiveNode} (h : LiveRel a n.st l.st) (hp : l.pos = n.pos) {E : Env} {p : Packet} {text : Bytes}
    (hs : n.hear E a p = (.ok text, n1)) {s1 : SState} (hone : n1.st.load a = .ok (Rec.ofStates s1 [])) :
    ∃ l1, l.hear E a p = (.ok text, l1) ∧ LiveRel a n1.st l1.st ∧ l1.pos = n1.pos := by
  cases p with
  | signal b =>
    simp only [Node.hear] at hs
    cases hm : newSignalMessageFromBytes E.S b with
    | err e => rw [hm] at hs; simp at hs
    | panic => rw [hm] at hs; simp at hs
    | ok m =>
      rw [hm] at hs
      simp only [Prod.mk.injEq] at hs
      obtain ⟨hs1, rfl⟩ := hs
      obtain ⟨z, hz, rfl⟩ := Res.map_eq_ok hs1
      obtain ⟨lv', h1, h2⟩ := h.decrypt (E := E) (pos := n.pos) (m := m) (x := z) (st' := (n.st.decrypt E n.pos a m).2.1)
        (pos' := (n.st.decrypt E n.pos a m).2.2) (Prod.ext hz rfl)
      exact ⟨⟨lv', (n.st.decrypt E n.pos a m).2.2⟩, by simp only [LiveNode.hear, hm, hp, h1, Res.map], h2, rfl⟩
  | preKey b =>
    simp only [Node.hear] at hs
    cases hm : newPreKeyMessageFromBytes E.P E.S b with
    | err e => rw [hm] at hs; simp at hs
    | panic => rw [hm] at hs; simp at hs
    | ok m =>
      rw [hm] at hs
      simp only [Prod.mk.injEq] at hs
      obtain ⟨hs1, rfl⟩ := hs
      obtain ⟨z, hz, rfl⟩ := Res.map_eq_ok hs1
      obtain ⟨lv', h1, h2⟩ := h.decryptPreKey (E := E) (pos := n.pos) (m := m) (x := z) (st' := (n.st.decryptPreKey E n.pos a m).2.1)
        (pos' := (n.st.decryptPreKey E n.pos a m).2.2) (Prod.ext hz rfl) hone
      exact ⟨⟨lv', (n.st.decryptPreKey E n.pos a m).2.2⟩, by simp only [LiveNode.hear, hm, hp, h1, Res.map], h2, rfl⟩

/-- Whoever accepted something is in a turn. -/
theorem receive_turn {p p' : Party} {k i : Nat} (h : p.receive k i = .accepted p') (h0 : p.turn ≠ 0 ∨ p.inbox = []) : p'.turn ≠ 0 := by
  unfold Party.receive at h
  cases hf : p.inbox.find? (fun x => x.1 == k) with
  | some x =>
    have : p.turn ≠ 0 := by
      rcases h0 with h0 | h0
      · exact h0
      · rw [h0] at hf; simp at hf
    obtain ⟨x1, x2⟩ := x
    simp only [hf] at h
    split at h
    · cases h; exact this
    · cases h
  | none =>
    simp only [hf] at h
    split at h
    · split at h
      · cases h; simp
      · cases h
    · cases h

theorem Inv.live {X : Setup} (hX : X.Ok) (hcl : X.clean) (evs : List Event) (hl : ∀ s t, Event.say s t ∈ evs → t.length < 2 ^ 63) :
    ∀ {w : World} {c : Conv} {es : Nat → Key32} {l : LiveWorld}, Inv X w c es evs.length → LiveWorldRel X.addr w l → ∀ outs, c.run evs = some outs →
      c.gentle evs → l.run X.env X.addr evs = w.run X.env X.addr evs := by
  induction evs with
  | nil => intros; rfl
  | cons ev evs ih =>
    intro w c es l h hr outs ho hg
    have ih := @ih (fun s t hm => hl s t (List.mem_cons_of_mem _ hm))
    obtain ⟨hg1, hg2⟩ := hg
    simp only [Talk.Conv.run] at ho
    simp only [World.run, LiveWorld.run]
    simp only [List.length_cons] at h
    cases ev with
    | say s text =>
      by_cases ht : (c.party s).turn = 0
      · simp [Talk.Conv.step, ht] at ho
      · obtain ⟨p, n, h1, h2⟩ := h.say hX s (hl s text (List.mem_cons_self ..)) ht
        have hstep : c.step (.say s text) = some (.said, c.said s text) := by simp only [Talk.Conv.step, if_neg ht]; rfl
        have hgn := hg2 _ _ hstep
        simp only [hstep, Option.map_eq_some_iff] at ho
        obtain ⟨os, ho1, rfl⟩ := ho
        obtain ⟨l1, g1, g2, g3⟩ := (hr.node s).say (hr.pos s) h1
        simp only [World.step, LiveWorld.step, h1, g1]
        have hr' := hr.upd s g2 g3 (w.wire ++ [(s, p)])
        rw [hr.wire]
        rw [ih h2 hr' _ ho1 hgn]
    | deliver i =>
      cases hn : c.notes[i]? with
      | none => simp [Talk.Conv.step, hn] at ho
      | some n =>
        obtain ⟨⟨sd, p⟩, hw, hp⟩ := all2_get h.wire hn
        have hsd : sd = n.sender := hp.side
        subst hsd
        have hd := h.deliver hX hp
        simp only [Talk.Conv.step, hn] at ho hg2
        simp only [World.step, LiveWorld.step, hr.wire, hw]
        have hrel := hr.node n.sender.peer
        rw [peer_peer] at hrel
        have hpos := hr.pos n.sender.peer
        have habr : ¬ ((∀ x ∈ (c.party n.sender.peer).inbox, x.1 ≠ n.turn) ∧ n.number > 5000) := fun q => hg1 ⟨n, hn, q⟩
        have hknown := fun hv => h.refused_known hX hcl hp hv habr
        cases hv : (c.party n.sender.peer).receive n.turn n.number with
        | forgotten => rw [hv] at ho; simp at ho
        | refused =>
          have hknown := hknown hv
          rw [hv] at ho hd hg2
          simp only [Option.map_eq_some_iff] at ho hd
          obtain ⟨os, ho1, rfl⟩ := ho
          have hgn := hg2 _ _ rfl
          obtain ⟨e, n', h1, h2⟩ := hd hcl
          obtain ⟨r, e', hload, hsome, hprev, hk⟩ := hknown
          obtain ⟨l1, g1, g2, g3⟩ : ∃ l1, (l.node n.sender.peer).hear (X.env n.sender.peer) (X.addr n.sender) p = (.err e, l1) ∧
              LiveRel (X.addr n.sender) n'.st l1.st ∧ l1.pos = n'.pos := by
            rcases hk with ⟨b, m, rfl, hm, hdw⟩ | ⟨b, pm, id, rfl, hm, hproc, hdw⟩
            · have hser : (w.node n.sender.peer).st.decrypt (X.env n.sender.peer) (w.node n.sender.peer).pos (X.addr n.sender) m =
                  (.err .noValidSessions, (w.node n.sender.peer).st, (w.node n.sender.peer).pos) := by
                have hdr : decryptWithRecord (X.env n.sender.peer) (w.node n.sender.peer).pos r m =
                    (.err .noValidSessions, r.set r.cur r.state, (w.node n.sender.peer).pos) := by
                  rw [decryptWithRecord_single hprev, hdw]; rfl
                obtain ⟨y, hy⟩ := Option.isSome_iff_exists.1 hsome
                simp only [Store.decrypt, Store.decryptTrace, hy, hload, decryptRec, hdr, finish, Store.applyAll]
              simp only [Node.hear, hX.hS, hm, hser, Res.map, Prod.mk.injEq, Res.err.injEq] at h1
              obtain ⟨rfl, rfl⟩ := h1
              obtain ⟨lv', k1, k2⟩ := hrel.decrypt_err hsome hload hdw
              exact ⟨⟨lv', (w.node n.sender.peer).pos⟩, by simp only [LiveNode.hear, hX.hS, hm, hpos, k1, Res.map], k2, rfl⟩
            · have hser := Store.decryptPreKey_single_err (pos := (w.node n.sender.peer).pos) hload hproc hprev hdw
              simp only [Node.hear, hX.hS, hX.hP, hm, hser, Res.map, Prod.mk.injEq, Res.err.injEq] at h1
              obtain ⟨rfl, rfl⟩ := h1
              obtain ⟨lv', k1, k2⟩ := hrel.decryptPreKey_err hload hproc hdw
              exact ⟨⟨lv', (w.node n.sender.peer).pos⟩, by simp only [LiveNode.hear, hX.hS, hX.hP, hm, hpos, k1, Res.map], k2, rfl⟩
          rw [h1, g1]
          simp only
          rw [ih h2 (hr.upd n.sender.peer (by rw [peer_peer]; exact g2) g3 w.wire) _ ho1 hgn]
        | accepted p' =>
          rw [hv] at ho hd hg2
          simp only [Option.map_eq_some_iff] at ho hd
          obtain ⟨os, ho1, rfl⟩ := ho
          have hgn := hg2 _ _ rfl
          obtain ⟨n', es', h1, h2⟩ := hd
          -- the record the recipient now stores
          obtain ⟨s1, hone⟩ : ∃ s1, n'.st.load (X.addr n.sender) = .ok (Rec.ofStates s1 []) := by
            obtain ⟨st, hh, hb⟩ := h2.party n.sender.peer
            have hnode : (upd w.node n.sender.peer n') n.sender.peer = n' := by simp [upd]
            simp only [hnode, party_set_same] at hb
            rcases hb with ⟨ps, q1, q2, -⟩ | ⟨-, q1, -⟩
            · rw [peer_peer, q2 hcl] at q1
              exact ⟨st, q1.load⟩
            · exfalso
              refine receive_turn hv ?_ q1
              obtain ⟨st0, hh0, -⟩ := h.party n.sender.peer
              by_cases e0 : (c.party n.sender.peer).turn = 0
              · right
                cases hin : (c.party n.sender.peer).inbox with
                | nil => rfl
                | cons x xs =>
                  have := (hh0.levels x (by rw [hin]; exact List.mem_cons_self ..)).1
                  omega
              · exact .inl e0
          obtain ⟨l1, g1, g2, g3⟩ := hrel.hear hpos h1 hone
          rw [h1, g1]
          simp only
          rw [ih h2 (hr.upd n.sender.peer (by rw [peer_peer]; exact g2) g3 w.wire) _ ho1 hgn]

/-- A live store and a serialising store with the same contents, neither having a session with `a`. -/
structure SameStart (a : Addr) (st : Store) (lv : LiveStore) : Prop where
  identities : lv.identities = st.identities
  preKeys : lv.preKeys = st.preKeys
  signedPreKeys : lv.signedPreKeys = st.signedPreKeys
  absent : lv.sessions a = none

/-- **C77.** Two users who keep their sessions in the in-memory store of tests/stores.go, where the library works on the stored objects themselves, and who
are otherwise in the situation of C03: processing the bundle succeeds, and the conversation that follows goes as with stores that keep copies, error for
error: messages within the receive window decrypt to what was sent, all others are refused (`Matches`, Spec/Talk), in every schedule of sends, deliveries,
reorderings, repetitions and losses in which no turn opens with a message that more than 5000 others of its turn precede. -/
theorem C77_in_memory_partial {C : Crypto} (hdh : C.DhLaw) (haes : C.AesLaw) {A B : Env} {addrA addrB : Addr} {stA stB stA' : Store} {posA posB posA' : Nat}
    {b : Bundle} {spk ot : IdKeyPair} (evs : List Event) (h : Meeting C A B addrA addrB stA stB stA' posA posB posA' b spk ot evs.length)
    (hn : evs.length < 2 ^ 32) (ht : ∀ s t, Event.say s t ∈ evs → t.length < 2 ^ 63) (outs : List Outcome) (ho : Conv.start.run evs = some outs)
    (hg : Conv.start.gentle evs) {lvA lvB : LiveStore} (hA : SameStart addrB stA lvA) (hB : SameStart addrA stB lvB) :
    ∃ lvA', lvA.processBundle A posA addrB b = (.ok (), lvA', posA') ∧
      LiveWorld.run (sides A B) (sides addrA addrB) ⟨sides ⟨lvA', posA'⟩ ⟨lvB, posB⟩, []⟩ evs =
        World.run (sides A B) (sides addrA addrB) ⟨sides ⟨stA', posA'⟩ ⟨stB, posB⟩, []⟩ evs ∧
      All2 Matches outs (LiveWorld.run (sides A B) (sides addrA addrB) ⟨sides ⟨lvA', posA'⟩ ⟨lvB, posB⟩, []⟩ evs) := by
  have hm := C03_conversation hdh haes evs h hn ht outs ho
  obtain ⟨X, es, hX, h1, h2, -, hcl, -, hi⟩ := h.inv hdh haes hn
  obtain ⟨lvA', g1, g2⟩ := LiveRel.processBundle hA.identities hA.preKeys hA.signedPreKeys h.newA hA.absent h.processed
  refine ⟨lvA', g1, ?_⟩
  have hr : LiveWorldRel X.addr ⟨sides ⟨stA', posA'⟩ ⟨stB, posB⟩, []⟩ ⟨sides ⟨lvA', posA'⟩ ⟨lvB, posB⟩, []⟩ := by
    refine ⟨fun s => ?_, fun s => by cases s <;> rfl, rfl⟩
    rw [h2]
    cases s with
    | alice => exact g2
    | bob =>
      refine ⟨hB.identities, hB.preKeys, hB.signedPreKeys, ⟨Rec.new, ?_, ?_, rfl, ?_, fun _ => ?_⟩, ?_⟩
      · show stB.load addrA = _
        simp only [Store.load, h.newB]
      · show (lvB.load addrA).state = _
        simp [LiveStore.load, hB.absent]
      · show (lvB.load addrA).prev = _
        simp [LiveStore.load, hB.absent, Rec.new]
      · show (lvB.load addrA).fresh = _
        simp [LiveStore.load, hB.absent, Rec.new]
      · show (stB.sessions addrA).isSome → _
        rw [h.newB]; simp
  have heq := hi.live hX hcl evs ht hr outs ho hg
  rw [h1, h2] at heq
  exact ⟨heq, by rw [heq]; exact hm⟩

section
open Toy

/-- The toy users' stores, live. -/
def liveBob : LiveStore := ⟨fun _ => none, bobStore.identities, bobStore.preKeys, bobStore.signedPreKeys⟩

/-- Twelve turns, each of one message; then the network repeats the first message, and Bob and Alice go on. -/
def toyReplay : List Event :=
  [.say .alice [1], .deliver 0, .say .bob [2], .deliver 1, .say .alice [3], .deliver 2, .say .bob [4], .deliver 3, .say .alice [5], .deliver 4,
   .say .bob [6], .deliver 5, .say .alice [7], .deliver 6, .say .bob [8], .deliver 7, .say .alice [9], .deliver 8, .say .bob [10], .deliver 9,
   .say .alice [11], .deliver 10, .deliver 0, .say .bob [12], .deliver 11]

set_option maxRecDepth 100000 in
theorem toy_meeting_long : Meeting Toy.C aliceEnv bobEnv Toy.alice Toy.bob emptyStore bobStore alice1 0 0 2 bundle signedPre oneTime 25 := by
  refine { toy_meeting with randA := ⟨?_, ?_⟩, randB := ⟨?_, ?_⟩, randSpk := ?_ }
  · intro i _ _ h; simp [aliceEnv, env] at h
  · intro i j h1 h2 h3
    have : ∀ j < 27, ∀ i < j, aliceEnv.drawn i ≠ aliceEnv.drawn j := by decide +kernel
    exact this j (by simpa using h3) i h2
  · intro i _ _ h; simp [bobEnv, env] at h
  · intro i j h1 h2 h3
    have : ∀ j < 25, ∀ i < j, bobEnv.drawn i ≠ bobEnv.drawn j := by decide +kernel
    exact this j (by simpa using h3) i h2
  · intro i h1 h2
    have : ∀ i < 25, bobEnv.drawn i ≠ some signedPre.pub := by decide +kernel
    exact this i (by simpa using h2)

theorem toy_startA : SameStart Toy.bob emptyStore liveEmpty := ⟨rfl, rfl, rfl, rfl⟩
theorem toy_startB : SameStart Toy.alice bobStore liveBob := ⟨rfl, rfl, rfl, rfl⟩

/-- A way to check `gentle`: no note is numbered above 5000. -/
theorem gentle_of_short : ∀ (evs : List Event) (c : Conv), (∀ n ∈ c.notes, n.number + evs.length ≤ 5000) →
    (∀ s, (c.party s).sent + evs.length ≤ 5000) → c.gentle evs := by
  intro evs
  induction evs with
  | nil => intros; trivial
  | cons e es ih =>
    intro c h hs
    refine ⟨?_, ?_⟩
    · cases e with
      | say s t => exact fun h => h
      | deliver i =>
        rintro ⟨n, hn, -, hl⟩
        have := h n (List.mem_of_getElem? hn)
        simp only [List.length_cons] at this
        omega
    · intro o c' hstep
      cases e with
      | say s t =>
        simp only [Talk.Conv.step] at hstep
        split at hstep
        · simp at hstep
        · simp only [Option.some.injEq, Prod.mk.injEq] at hstep
          obtain ⟨-, rfl⟩ := hstep
          refine ih _ ?_ ?_
          · intro n hn
            simp only [List.mem_append, List.mem_singleton] at hn
            rcases hn with hn | rfl
            · have := h n hn; simp only [List.length_cons] at this; omega
            · have := hs s; simp only [List.length_cons] at this; dsimp only; omega
          · intro t'
            have := hs t'
            simp only [List.length_cons] at this
            have h2 : ((c.said s t).party t').sent ≤ (c.party t').sent + 1 := said_sent c s t' t
            simp only [Talk.Conv.said] at h2
            omega
      | deliver i =>
        simp only [Talk.Conv.step] at hstep
        cases hn : c.notes[i]? with
        | none => simp [hn] at hstep
        | some n =>
          simp only [hn] at hstep
          cases hv : (c.party n.sender.peer).receive n.turn n.number with
          | forgotten => simp [hv] at hstep
          | refused =>
            simp only [hv, Option.some.injEq, Prod.mk.injEq] at hstep
            obtain ⟨-, rfl⟩ := hstep
            refine ih _ (fun n hn => ?_) (fun s => ?_)
            · have := h n hn; simp only [List.length_cons] at this; omega
            · have := hs s; simp only [List.length_cons] at this; omega
          | accepted p =>
            simp only [hv, Option.some.injEq, Prod.mk.injEq] at hstep
            obtain ⟨-, rfl⟩ := hstep
            refine ih _ (fun n hn => ?_) (fun s => ?_)
            · have := h n (by simpa using hn); simp only [List.length_cons] at this; omega
            · have h1 := hs s
              have h0 := hs n.sender.peer
              simp only [List.length_cons] at h1 h0
              rcases side_cases n.sender.peer s with e | e
              · rw [e, party_set_same]
                have : p.sent ≤ (c.party n.sender.peer).sent := by
                  unfold Party.receive at hv
                  split at hv
                  · split at hv
                    · cases hv; exact Nat.le_refl _
                    · cases hv
                  · split at hv
                    · split at hv
                      · cases hv; simp
                      · cases hv
                    · cases hv
                omega
              · rw [e] at h1 ⊢
                rw [party_set_peer]
                omega

/-- Non-vacuity of C77: the toy users and the conversation of C03 (with a replay of a remembered turn, which is refused). -/
example : Conv.start.gentle toyTalk := gentle_of_short _ _ (by simp [Conv.start]) (by intro s; cases s <;> simp [Conv.start, Talk.Conv.party, toyTalk])

set_option maxRecDepth 100000 in
/-- The theorem at work. -/
example : ∃ outs, Conv.start.run toyTalk = some outs ∧ ∃ lvA', liveEmpty.processBundle aliceEnv 0 Toy.bob bundle = (.ok (), lvA', 2) ∧
    All2 Matches outs (LiveWorld.run (sides aliceEnv bobEnv) (sides Toy.alice Toy.bob) ⟨sides ⟨lvA', 2⟩ ⟨liveBob, 0⟩, []⟩ toyTalk) := by
  have ho : ∃ outs, Conv.start.run toyTalk = some outs := Option.isSome_iff_exists.1 (by decide +kernel)
  obtain ⟨outs, ho⟩ := ho
  obtain ⟨lv, h1, -, h3⟩ := C77_in_memory_partial dhLaw aesLaw toyTalk toy_meeting (by decide) (by
    intro s t h
    simp only [toyTalk, List.mem_cons, List.mem_nil_iff, or_false, Event.say.injEq, reduceCtorEq, false_or] at h
    rcases h with ⟨-, rfl⟩ | ⟨-, rfl⟩ | ⟨-, rfl⟩ | ⟨-, rfl⟩ | ⟨-, rfl⟩ | ⟨-, rfl⟩ | ⟨-, rfl⟩ <;> decide) outs ho
    (gentle_of_short _ _ (by simp [Conv.start]) (by intro s; cases s <;> simp [Conv.start, Talk.Conv.party, toyTalk])) toy_startA toy_startB
  exact ⟨outs, ho, lv, h1, h3⟩

set_option maxRecDepth 100000 in
/-- **C77 does not extend to repetitions of messages of turns no longer remembered.** The two users exchange eleven messages, one per turn; then
somebody repeats the very first message (which both kinds of stores refuse), and Bob answers.  With stores that keep copies Alice reads the
answer; with the in-memory store the refused repetition has replaced Bob's keys, and she cannot. -/
theorem C77_replay_false : ∃ (A B : Env) (addrA addrB : Addr) (stA stB stA' : Store) (b : Bundle) (spk ot : IdKeyPair) (lvA lvB lvA' : LiveStore)
    (posA posB posA' : Nat) (evs : List Event),
    Meeting Toy.C A B addrA addrB stA stB stA' posA posB posA' b spk ot evs.length ∧ SameStart addrB stA lvA ∧ SameStart addrA stB lvB ∧
    lvA.processBundle A posA addrB b = (.ok (), lvA', posA') ∧
    (World.run (sides A B) (sides addrA addrB) ⟨sides ⟨stA', posA'⟩ ⟨stB, posB⟩, []⟩ evs).drop 22 =
      [.heard (.err .noValidSessions), .said (.ok ()), .heard (.ok [12])] ∧
    (LiveWorld.run (sides A B) (sides addrA addrB) ⟨sides ⟨lvA', posA'⟩ ⟨lvB, posB⟩, []⟩ evs).drop 22 =
      [.heard (.err .noValidSessions), .said (.ok ()), .heard (.err .noValidSessions)] :=
  ⟨aliceEnv, bobEnv, Toy.alice, Toy.bob, emptyStore, bobStore, alice1, bundle, signedPre, oneTime, liveEmpty, liveBob, liveA1, 0, 0, 2, toyReplay,
    toy_meeting_long, toy_startA, toy_startB, Prod.ext (by decide +kernel) (Prod.ext rfl (by decide +kernel)), by decide +kernel, by decide +kernel⟩
end

/-! ### Any application -/

/-- The call succeeded. -/
def Answer.good : Answer → Prop
  | .encrypted r => ∃ x, r = .ok x
  | .decrypted r => ∃ x, r = .ok x
  | .processed r => r = .ok ()

/-- No stored session has archived ones. -/
def Store.Single (st : Store) : Prop := ∀ a x, st.sessions a = some x → x.previous = []

/-- Along the first `n` calls of the application every call succeeds and at most one session is kept per address. -/
def Store.smooth (E : Env) (app : App) : Nat → Store → Nat → List Answer → Prop
  | 0, _, _, _ => True
  | n + 1, st, pos, h =>
    match app h with
    | none => True
    | some c => let x := st.call E pos c; x.1.good ∧ x.2.1.Single ∧ x.2.1.smooth E app n x.2.2 (h ++ [x.1])

/-- The two stores hold the same: everything but sessions literally, and the sessions, of which there is at most one per address, as objects and as serialised copies. -/
def SameData (st : Store) (lv : LiveStore) : Prop :=
  lv.identities = st.identities ∧ lv.preKeys = st.preKeys ∧ lv.signedPreKeys = st.signedPreKeys ∧
  ∀ a, (st.sessions a = none ∧ lv.sessions a = none) ∨
    ∃ x r r', st.sessions a = some x ∧ lv.sessions a = some r ∧ Rec.ofStruct x = .ok r' ∧ r.state = r'.state ∧ r.prev = [] ∧ r'.prev = []

theorem SameData.live {st : Store} {lv : LiveStore} (h : SameData st lv) (a : Addr) : LiveRel a st lv := by
  obtain ⟨h1, h2, h3, h4⟩ := h
  rcases h4 a with ⟨e1, e2⟩ | ⟨x, r, r', e1, e2, e3, e4, e5, e6⟩
  · refine ⟨h1, h2, h3, ⟨Rec.new, by simp only [Store.load, e1], by simp [LiveStore.load, e2], rfl, by simp [LiveStore.load, e2, Rec.new], ?_⟩, ?_⟩
    · intro _; simp [LiveStore.load, e2, Rec.new]
    · rw [e1]; intro hx; simp at hx
  · refine ⟨h1, h2, h3, ⟨r', by simp only [Store.load, e1, e3], by simp [LiveStore.load, e2, e4], e6, by simp [LiveStore.load, e2, e5], ?_⟩, fun _ => by rw [e2]; rfl⟩
    have : r'.fresh = false := by
      simp only [Rec.ofStruct] at e3
      cases hp : seqRes (x.previous.map SState.ofStruct) with
      | err e => simp [hp] at e3
      | panic => simp [hp] at e3
      | ok l =>
        simp only [hp, Res.bind_ok] at e3
        cases hs : SState.ofStruct x.state with
        | err e => simp [hs] at e3
        | panic => simp [hs] at e3
        | ok s => simp only [hs, Res.map_ok, Res.ok.injEq] at e3; rw [← e3]; rfl
    rw [this]; intro hx; simp at hx

/-- Back from what is known about one address, when the others are as before. -/
theorem SameData.step {st st' : Store} {lv lv' : LiveStore} (h : SameData st lv) {a : Addr} (hr : LiveRel a st' lv') (hsome : (st'.sessions a).isSome)
    (hst : ∀ b ≠ a, st'.sessions b = st.sessions b) (hlv : ∀ b ≠ a, lv'.sessions b = lv.sessions b) : SameData st' lv' := by
  refine ⟨hr.identities, hr.preKeys, hr.signedPreKeys, fun b => ?_⟩
  by_cases hb : b = a
  · subst hb
    obtain ⟨r, hl, e1, e2, e3, -⟩ := hr.one
    obtain ⟨x, hx⟩ := Option.isSome_iff_exists.1 hsome
    obtain ⟨q, hq⟩ := Option.isSome_iff_exists.1 (hr.present hsome)
    simp only [LiveStore.load, hq, Option.getD_some] at e1 e3
    simp only [Store.load, hx] at hl
    refine .inr ⟨x, q, r, hx, hq, ?_, e1, e3, e2⟩
    cases ho : Rec.ofStruct x with
    | ok r0 => simp only [ho, Res.ok.injEq] at hl; rw [hl]
    | err e => simp [ho] at hl
    | panic => simp [ho] at hl
  · rw [hst b hb, hlv b hb]
    exact h.2.2.2 b

theorem single_load {st : Store} (hs : st.Single) {a : Addr} {r : Rec} (hl : st.load a = .ok r) (hsome : (st.sessions a).isSome) : ∃ s, st.load a = .ok (Rec.ofStates s []) := by
  obtain ⟨x, hx⟩ := Option.isSome_iff_exists.1 hsome
  simp only [Store.load, hx] at hl ⊢
  simp only [Rec.ofStruct, hs a x hx, List.map_nil, seqRes, Res.bind_ok] at hl ⊢
  cases ho : SState.ofStruct x.state with
  | ok s => exact ⟨s, rfl⟩
  | err e => simp [ho] at hl
  | panic => simp [ho] at hl

theorem isSome_of_load {st : Store} {a : Addr} {s : SState} {l : List SState} (hl : st.load a = .ok (Rec.ofStates s l)) : (st.sessions a).isSome := by
  cases hx : st.sessions a with
  | some x => rfl
  | none =>
    simp only [Store.load, hx, Res.ok.injEq] at hl
    have := congrArg Rec.fresh hl
    simp [Rec.new, Rec.ofStates] at this

theorem SameData.call {st : Store} {lv : LiveStore} (h : SameData st lv) {E : Env} {pos : Nat} {c : Call} (hg : (st.call E pos c).1.good) (hs : (st.call E pos c).2.1.Single) :
    (lv.call E pos c).1 = (st.call E pos c).1 ∧ SameData (st.call E pos c).2.1 (lv.call E pos c).2.1 ∧ (lv.call E pos c).2.2 = (st.call E pos c).2.2 := by
  cases c with
  | encrypt a pt =>
    obtain ⟨x, hx⟩ := hg
    simp only [Store.call] at hx hs ⊢
    cases he : st.encrypt E a pt with
    | mk res st' =>
      rw [he] at hx; simp only at hx; subst hx
      obtain ⟨lv', e1, e2⟩ := (h.live a).encrypt he
      obtain ⟨_, _, -, -, hl, -⟩ := Store.encrypt_ok he
      simp only [LiveStore.call, e1]
      refine ⟨by trivial, h.step e2 (isSome_of_load hl) (fun b hb => ?_) (fun b hb => ?_), by trivial⟩
      · have := ((C42_isolation E st pos a b hb).1 pt).1; rw [he] at this; exact this
      · have := ((C42_isolation_live E lv pos a b hb).1 pt).1; rw [e1] at this; exact this
  | decrypt a m =>
    obtain ⟨x, hx⟩ := hg
    simp only [Store.call] at hx hs ⊢
    cases he : st.decrypt E pos a m with
    | mk res y =>
      obtain ⟨st', pos'⟩ := y
      rw [he] at hx; simp only at hx; subst hx
      obtain ⟨lv', e1, e2⟩ := (h.live a).decrypt he
      obtain ⟨_, _, -, -, -, hl, -⟩ := Store.decrypt_ok he
      simp only [LiveStore.call, e1]
      refine ⟨by trivial, h.step e2 (isSome_of_load hl) (fun b hb => ?_) (fun b hb => ?_), by trivial⟩
      · have := ((C42_isolation E st pos a b hb).2.1 m).1; rw [he] at this; exact this
      · have := ((C42_isolation_live E lv pos a b hb).2.1 m).1; rw [e1] at this; exact this
  | decryptPreKey a m =>
    obtain ⟨x, hx⟩ := hg
    simp only [Store.call] at hx hs ⊢
    cases he : st.decryptPreKey E pos a m with
    | mk res y =>
      obtain ⟨st', pos'⟩ := y
      rw [he] at hx hs; simp only at hx hs; subst hx
      obtain ⟨_, _, _, _, -, -, -, hl, -⟩ := Store.decryptPreKey_ok he
      obtain ⟨s1, hs1⟩ := single_load hs hl (isSome_of_load hl)
      obtain ⟨lv', e1, e2⟩ := (h.live a).decryptPreKey he hs1
      simp only [LiveStore.call, e1]
      refine ⟨by trivial, h.step e2 (isSome_of_load hl) (fun b hb => ?_) (fun b hb => ?_), by trivial⟩
      · have := ((C42_isolation E st pos a b hb).2.2.1 m).1; rw [he] at this; exact this
      · have := ((C42_isolation_live E lv pos a b hb).2.2.1 m).1; rw [e1] at this; exact this
  | processBundle a bn =>
    simp only [Answer.good, Store.call] at hg hs ⊢
    cases he : st.processBundle E pos a bn with
    | mk res y =>
      obtain ⟨st', pos'⟩ := y
      rw [he] at hg hs; simp only at hg hs; subst hg
      obtain ⟨r, spk, r', -, hr, hb, hl, -⟩ := Store.processBundle_ok he
      obtain ⟨s1, hs1⟩ := single_load hs hl (isSome_of_load hl)
      -- an existing session would have been archived
      have hnone : st.sessions a = none ∧ lv.sessions a = none := by
        rcases h.2.2.2 a with hx | ⟨x, q, q', e1, e2, e3, -, -, e6⟩
        · exact hx
        · exfalso
          have hfr : r.fresh = false := by
            have hsm := (h.live a)
            obtain ⟨r0, hl0, -⟩ := hsm.one
            simp only [Store.load, e1, e3, Res.ok.injEq] at hr
            subst hr
            simp only [Rec.ofStruct] at e3
            cases hp : seqRes (x.previous.map SState.ofStruct) with
            | err e => simp [hp] at e3
            | panic => simp [hp] at e3
            | ok l =>
              simp only [hp, Res.bind_ok] at e3
              cases hs' : SState.ofStruct x.state with
              | err e => simp [hs'] at e3
              | panic => simp [hs'] at e3
              | ok s => simp only [hs', Res.map_ok, Res.ok.injEq] at e3; rw [← e3]; rfl
          have hrp : r.prev = [] := by simp only [Store.load, e1, e3, Res.ok.injEq] at hr; rw [← hr]; exact e6
          rw [hl, Res.ok.injEq] at hs1
          have hpr := congrArg Rec.prevStates hs1
          rw [ofStates_prev, ofStates_prev] at hpr
          obtain ⟨_, _, _, _, _, -, -, -, -, -, hb', -, -⟩ := buildFromBundle_ok hb
          rw [hb'] at hpr
          simp [hfr, hrp, Rec.archiveCurrentState, Rec.promote, Rec.prevStates, Rec.set, archivedStatesMaxLength] at hpr
      obtain ⟨lv', e1, e2⟩ := LiveRel.processBundle h.1 h.2.1 h.2.2.1 hnone.1 hnone.2 he
      simp only [LiveStore.call, e1]
      refine ⟨by trivial, h.step e2 (isSome_of_load hl) (fun b hb => ?_) (fun b hb => ?_), by trivial⟩
      · have := ((C42_isolation E st pos a b hb).2.2.2 bn).1; rw [he] at this; exact this
      · have := ((C42_isolation_live E lv pos a b hb).2.2.2 bn).1; rw [e1] at this; exact this

/-- **C77 (any application).** An application that keeps its sessions in the in-memory store gets the same answers as one whose store keeps serialised copies, whatever it calls,
for whatever peers, in whatever order, each call depending on all earlier answers, as long as every call succeeds and at most one session is kept per peer.  No assumption on the
cryptography or on the peers. -/
theorem C77_any_application_partial (E : Env) (app : App) (n : Nat) (st : Store) (lv : LiveStore) (pos : Nat) (h : SameData st lv) (hs : st.smooth E app n pos []) :
    lv.run E app n pos [] = st.run E app n pos [] := by
  have key : ∀ (n : Nat) (st : Store) (lv : LiveStore) (pos : Nat) (hist : List Answer), SameData st lv → st.smooth E app n pos hist →
      lv.run E app n pos hist = st.run E app n pos hist := by
    intro n
    induction n with
    | zero => intros; rfl
    | succ n ih =>
      intro st lv pos hist h hs
      simp only [LiveStore.run, Store.run, Store.smooth] at hs ⊢
      cases hc : app hist with
      | none => rfl
      | some c =>
        simp only [hc] at hs ⊢
        obtain ⟨e1, e2, e3⟩ := h.call hs.1 hs.2.1
        rw [e1, e3]
        exact ih _ _ _ _ e2 hs.2.2
  exact key n st lv pos [] h hs

/-- The call succeeded, as a Boolean. -/
def Res.good {α : Type} : Res α → Bool
  | .ok _ => true
  | _ => false

/-- A decidable sufficient condition for `Store.smooth`, for applications that talk to one peer. -/
def Store.smoothB (E : Env) (app : App) (a : Addr) : Nat → Store → Nat → List Answer → Bool
  | 0, _, _, _ => true
  | n + 1, st, pos, h =>
    match app h with
    | none => true
    | some c =>
      let x := st.call E pos c
      (decide (c.addr = a) && (match x.1 with | .encrypted r => r.good | .decrypted r => r.good | .processed r => r.good)) &&
      ((x.2.1.sessions a).all (fun y => y.previous.isEmpty) && x.2.1.smoothB E app a n x.2.2 (h ++ [x.1]))

theorem smoothB_smooth {E : Env} {app : App} {a : Addr} : ∀ (n : Nat) (st : Store) (pos : Nat) (h : List Answer), (∀ b, b ≠ a → st.sessions b = none) →
    st.smoothB E app a n pos h = true → st.smooth E app n pos h := by
  intro n
  induction n with
  | zero => intros; trivial
  | succ n ih =>
    intro st pos h ho hb
    simp only [Store.smoothB, Store.smooth] at hb ⊢
    cases hc : app h with
    | none => trivial
    | some c =>
      simp only [hc, Bool.and_eq_true, decide_eq_true_eq] at hb ⊢
      obtain ⟨⟨b1, b2⟩, b3, b4⟩ := hb
      have hother : ∀ b, b ≠ a → (st.call E pos c).2.1.sessions b = none := by
        intro b hne
        rw [← ho b hne]
        subst b1
        cases c with
        | encrypt a pt => exact ((C42_isolation E st pos a b hne).1 pt).1
        | decrypt a m => exact ((C42_isolation E st pos a b hne).2.1 m).1
        | decryptPreKey a m => exact ((C42_isolation E st pos a b hne).2.2.1 m).1
        | processBundle a bn => exact ((C42_isolation E st pos a b hne).2.2.2 bn).1
      refine ⟨?_, ?_, ih _ _ _ hother b4⟩
      · revert b2
        generalize (st.call E pos c).1 = an
        intro b2
        cases an with
        | encrypted r => cases r <;> simp_all [Answer.good, Res.good]
        | decrypted r => cases r <;> simp_all [Answer.good, Res.good]
        | processed r => cases r <;> simp_all [Answer.good, Res.good]
      · intro b x hx
        by_cases hne : b = a
        · subst hne
          rw [hx] at b3
          simpa using b3
        · rw [hother b hne] at hx; cases hx

section
open Toy

/-- Alice's application: it processes Bob's bundle, sends two messages, reads the reply and sends another message. -/
def liveApp : App := fun hist =>
  match hist.length with
  | 0 => some (.processBundle bob bundle)
  | 1 => some (.encrypt bob [104, 105])
  | 2 => some (.encrypt bob [1, 2, 3])
  | 3 => some (.decrypt bob reply1)
  | 4 => some (.encrypt bob [7])
  | _ => none

theorem live_empty_same : SameData emptyStore liveEmpty := ⟨rfl, rfl, rfl, fun _ => .inl ⟨rfl, rfl⟩⟩

theorem liveApp_smooth : emptyStore.smooth aliceEnv liveApp 9 0 [] :=
  smoothB_smooth (a := bob) 9 _ _ _ (fun _ _ => rfl) (by decide +kernel)

/-- Non-vacuity of C77 (any application): the run has five answers, and the in-memory store gives the same. -/
example : liveEmpty.run aliceEnv liveApp 9 0 [] = emptyStore.run aliceEnv liveApp 9 0 [] ∧ (liveEmpty.run aliceEnv liveApp 9 0 []).length = 5 :=
  ⟨C77_any_application_partial aliceEnv liveApp 9 emptyStore liveEmpty 0 live_empty_same liveApp_smooth,
   by rw [C77_any_application_partial aliceEnv liveApp 9 emptyStore liveEmpty 0 live_empty_same liveApp_smooth]; decide +kernel⟩
end

end Verif
