import Verif.Model.Whole
import Verif.Props.TalkCrash
import Verif.Props.Provenance
/-
C100: a conversation under everything at once.
-/
namespace Verif
open Talk (Side Party Conv Note Event Outcome)

/-! ### What a call may do before it is cut off -/

theorem encryptTrace_for (E : Env) (st : Store) (a : Addr) (t : Bytes) : ∀ e ∈ (st.encryptTrace E a t).2, e.For a := by
  unfold Store.encryptTrace
  split
  · exact encryptRec_for E a _ t
  · simp
  · simp

theorem decryptTrace_for (E : Env) (st : Store) (pos : Nat) (a : Addr) (m : SignalMsg) : ∀ e ∈ (st.decryptTrace E pos a m).2.2, e.For a := by
  unfold Store.decryptTrace
  split
  · simp
  · split
    · exact decryptRec_for E pos a _ m
    · simp
    · simp

theorem decryptPreKeyTrace_for (E : Env) (st : Store) (pos : Nat) (a : Addr) (m : PreKeyMsg) : ∀ e ∈ (st.decryptPreKeyTrace E pos a m).2.2, e.For a := by
  unfold Store.decryptPreKeyTrace
  split
  · exact decryptPreKeyRec_for E _ _ _ pos a _ m
  · simp
  · simp

theorem processBundleTrace_for (E : Env) (st : Store) (pos : Nat) (a : Addr) (b : Bundle) : ∀ e ∈ (st.processBundleTrace E pos a b).2.2, e.For a := by
  unfold Store.processBundleTrace
  split
  · simp
  · simp
  · split
    · exact buildFromBundle_effects E pos a _ b _
    · simp
    · simp

theorem callOps_for (E : Env) (st : Store) (pos : Nat) (c : Call) : ∀ e ∈ (st.callOps E pos c).1, e.For c.addr := by
  cases c with
  | encrypt a t => exact encryptTrace_for E st a t
  | decrypt a m => exact decryptTrace_for E st pos a m
  | decryptPreKey a m => exact decryptPreKeyTrace_for E st pos a m
  | processBundle a b => exact processBundleTrace_for E st pos a b

theorem callOps_pos (E : Env) (st : Store) (pos : Nat) (c : Call) : (st.callOps E pos c).2 = (st.call E pos c).2.2 := by
  cases c <;> rfl

/-- The sessions a call stores are reachable; the one-time prekeys it removes are ones its message names. -/
theorem callOps_frame {E : Env} {st : Store} (pos : Nat) (c : Call) (h : st.AllReachable) :
    (∀ b r, Effect.storeSession b r ∈ (st.callOps E pos c).1 → Reachable r) ∧ (∀ id, Effect.removePreKey id ∈ (st.callOps E pos c).1 → (Errand.call c).NeedsPreKey id) := by
  cases c with
  | encrypt a t =>
    simp only [Store.callOps, Store.encryptTrace]
    cases hl : st.load a with
    | err e => simp
    | panic => simp
    | ok r0 =>
      refine ⟨fun b r hm => encryptRec_stores (h a r0 hl) hm, fun id hm => ?_⟩
      simp only at hm
      unfold encryptRec at hm; split at hm <;> simp at hm
  | decrypt a m =>
    simp only [Store.callOps, Store.decryptTrace]
    split
    · simp
    · cases hl : st.load a with
      | err e => simp
      | panic => simp
      | ok r0 =>
        refine ⟨fun b r hm => decryptRec_stores (h a r0 hl) hm, fun id hm => ?_⟩
        simp only at hm
        unfold decryptRec at hm; split at hm <;> simp at hm
  | decryptPreKey a m =>
    simp only [Store.callOps, Store.decryptPreKeyTrace]
    cases hl : st.load a with
    | err e => simp
    | panic => simp
    | ok r0 => exact ⟨fun b r hm => decryptPreKeyRec_stores (h a r0 hl) hm, fun id hm => decryptPreKeyRec_removes hm⟩
  | processBundle a bn =>
    simp only [Store.callOps, Store.processBundleTrace]
    split
    · simp
    · simp
    · rename_i spk _
      cases hl : st.load a with
      | err e => simp
      | panic => simp
      | ok r0 =>
        refine ⟨fun b r hm => buildFromBundle_stores (h a r0 hl) hm, fun id hm => ?_⟩
        simp only [buildFromBundle] at hm
        exfalso
        split at hm
        · simp at hm
        · simp at hm
        · split at hm
          · simp at hm
          · split at hm
            · simp at hm
            · simp at hm
            · split at hm
              · simp at hm
              · simp at hm
              · split at hm <;> simp at hm

/-- What a deed leaves alone, also when it is cut off. -/
theorem deed_frame {E : Env} {n : Node} {peer : Addr} (d : Deed) (h : n.st.AllReachable) (hp : ¬ d.what.About peer) :
    (n.deed E d).st.AllReachable ∧ (n.pos ≤ (n.deed E d).pos ∧ (n.deed E d).pos ≤ n.pos + 42) ∧
    (n.deed E d).st.sessions peer = n.st.sessions peer ∧ (n.deed E d).st.identities peer = n.st.identities peer ∧
    (∀ id, ¬ d.what.NeedsPreKey id → (n.deed E d).st.preKeys id = n.st.preKeys id) ∧
    (∀ id, ¬ d.what.ReplacesSigned id → (n.deed E d).st.signedPreKeys id = n.st.signedPreKeys id) := by
  obtain ⟨x, dies⟩ := d
  cases dies with
  | none =>
    have : n.deed E ⟨x, none⟩ = n.errand E x := by cases x <;> rfl
    rw [this]
    exact errand_frame x h hp
  | some k =>
    cases x with
    | call c =>
      have hne : peer ≠ c.addr := fun hx => hp hx.symm
      have hf := callOps_frame (E := E) n.pos c h
      have hto := callOps_for E n.st n.pos c
      have htake : ∀ e ∈ ((n.st.callOps E n.pos c).1).take k, e ∈ (n.st.callOps E n.pos c).1 := fun e he => List.mem_of_mem_take he
      have hfr := applyAll_frame n.st c.addr peer hne _ (fun e he => hto e (htake e he))
      have hkeys := applyAll_keys (effs := ((n.st.callOps E n.pos c).1).take k) (st := n.st)
      refine ⟨applyAll_reachable h fun a r hr => hf.1 a r (htake _ hr), ?_, hfr.1, hfr.2, fun id hid => hkeys.2 id fun hm => hid (hf.2 id (htake _ hm)), fun id _ => congrFun hkeys.1 id⟩
      show n.pos ≤ (n.st.callOps E n.pos c).2 ∧ (n.st.callOps E n.pos c).2 ≤ n.pos + 42
      rw [callOps_pos]
      exact (call_frame (E := E) n.pos c h).2.1
    | generate => exact errand_frame (E := E) .generate h hp
    | saveIdentity a k => exact errand_frame (E := E) (.saveIdentity a k) h hp
    | deleteSession a => exact errand_frame (E := E) (.deleteSession a) h hp
    | storePreKey i kp => exact errand_frame (E := E) (.storePreKey i kp) h hp
    | removePreKey i => exact errand_frame (E := E) (.removePreKey i) h hp
    | storeSignedPreKey i kp => exact errand_frame (E := E) (.storeSignedPreKey i kp) h hp
    | removeSignedPreKey i => exact errand_frame (E := E) (.removeSignedPreKey i) h hp

/-- Something one of the users does besides the conversation. -/
theorem Inv.deed {X : Setup} {w : World} {c : Conv} {es : Nat → Key32} {left : Nat} (h : Inv X w c es (left + 42)) (s : Side) (d : Deed)
    (hr : (w.node s).st.AllReachable) (hp : ¬ d.what.About (X.addr s.peer)) (hbob : s = .bob → ¬ d.what.NeedsPreKey X.otId ∧ ¬ d.what.ReplacesSigned X.spkId) :
    Inv X ⟨upd w.node s ((w.node s).deed (X.env s) d), w.wire⟩ c es left := by
  obtain ⟨-, h2, h3, h4, h5, h6⟩ := deed_frame (E := X.env s) d hr hp
  refine h.untouched s h2 ?_ ?_
  · intro st hb
    rcases hb with ⟨ps, q1, q2⟩ | ⟨rfl, q2, ⟨r, q3, q4⟩, q5, q6, q7⟩
    · exact .inl ⟨ps, ⟨(load_congr h3).trans q1.load, q1.init, q1.inits, q1.version⟩, q2⟩
    · exact .inr ⟨rfl, q2, ⟨r, (load_congr h3).trans q3, q4⟩, fun hc => h3.trans (q5 hc), (h5 _ (hbob rfl).1).trans q6, q7⟩
  · rintro rfl
    refine ⟨(h6 _ (hbob rfl).2).trans h.spk, ?_⟩
    have h4' : ((w.node .bob).deed (X.env .bob) d).st.identities (X.addr .alice) = (w.node .bob).st.identities (X.addr .alice) := h4
    rw [h4']; exact h.ident

/-! ### A made-up packet, the call on which is cut off -/

/-- The key a prekey message saves is its own, and it was trusted. -/
theorem decryptPreKeyTrace_saves {E : Env} {st : Store} {pos : Nat} {a b : Addr} {m : PreKeyMsg} {k : Option Key32}
    (hm : Effect.saveIdentity b k ∈ (st.decryptPreKeyTrace E pos a m).2.2) : E.trusted st.identities a m.identityKey = true ∧ k = some m.identityKey := by
  unfold Store.decryptPreKeyTrace at hm
  cases hl : st.load a with
  | err e => simp [hl] at hm
  | panic => simp [hl] at hm
  | ok r =>
    simp only [hl] at hm
    have heff : ∀ k, Effect.saveIdentity b k ∈ (process E st.identities st.preKeys st.signedPreKeys a r m).2.2 → E.trusted st.identities a m.identityKey = true ∧ k = some m.identityKey := by
      intro k
      unfold process
      split
      · simp
      · rename_i ht
        split
        · simp
        · simp
        · intro h
          simp only [List.mem_cons, Effect.saveIdentity.injEq, List.not_mem_nil, or_false] at h
          exact ⟨by simpa using ht, h.2⟩
    unfold decryptPreKeyRec at hm
    cases hpr : process E st.identities st.preKeys st.signedPreKeys a r m with
    | mk res x =>
      obtain ⟨r1, eff⟩ := x
      rw [hpr] at hm heff
      cases res with
      | err e => exact heff k hm
      | panic => exact heff k hm
      | ok id =>
        simp only at hm heff
        cases hd : decryptWithRecord E pos r1 m.message with
        | mk res2 y =>
          obtain ⟨r2, pos'⟩ := y
          rw [hd] at hm
          cases res2 with
          | err e => exact heff k hm
          | panic => exact heff k hm
          | ok x =>
            have h1 : Effect.saveIdentity b k ∈ eff ++ [Effect.storeSession a r2] → E.trusted st.identities a m.identityKey = true ∧ k = some m.identityKey := by
              intro h
              rw [List.mem_append] at h
              rcases h with h | h
              · exact heff k h
              · simp at h
            simp only at hm
            cases id with
            | none => exact h1 hm
            | some o =>
              simp only at hm
              split at hm
              · exact h1 hm
              · rw [List.mem_append] at hm
                rcases hm with h | h
                · exact h1 h
                · simp at h

/-- The key an ordinary message saves is the one of the session, if there is just one session state. -/
theorem decryptTrace_saves {E : Env} {st : Store} {pos : Nat} {a b : Addr} {m : SignalMsg} {k : Option Key32} (hm : Effect.saveIdentity b k ∈ (st.decryptTrace E pos a m).2.2) :
    st.sessions a ≠ none ∧ ∃ r, st.load a = .ok r ∧ (r.prev = [] → k = r.state.remoteIdentity) := by
  unfold Store.decryptTrace at hm
  split at hm
  · simp at hm
  · rename_i hs
    refine ⟨by rw [hs]; simp, ?_⟩
    cases hl : st.load a with
    | err e => simp [hl] at hm
    | panic => simp [hl] at hm
    | ok r =>
      refine ⟨r, rfl, fun hp => ?_⟩
      simp only [hl] at hm
      unfold decryptRec at hm
      cases hd : decryptWithRecord E pos r m with
      | mk res y =>
        obtain ⟨r', pos'⟩ := y
        rw [hd] at hm
        cases res with
        | err e => simp at hm
        | panic => simp at hm
        | ok x =>
          simp only [List.mem_cons, Effect.saveIdentity.injEq, reduceCtorEq, List.not_mem_nil, or_false] at hm
          obtain ⟨bb, s, d, s', b', hb, hkept, hdd, hs', -⟩ := decryptWithRecord_ok hd
          have hk2 := decryptWithState_kept E d s m
          rw [hdd] at hk2
          have hk3 := hkept.trans hk2
          rw [hp] at hb
          simp only [List.not_mem_nil, or_false] at hb
          rw [hm.2, hs', hk3.remote, hb]; rfl

/-- Cut off before `StoreSession`: at most the identity the call names is saved. -/
theorem cut_saved {a : Addr} {ops : List Effect} (h : Shape a ops) (st : Store) (k : Nat) (hs : (ops.take k).any Effect.isStore = false) :
    (st.applyAll (ops.take k)).1 = st ∨
    ∃ key, (st.applyAll (ops.take k)).1 = { st with identities := upd st.identities a key } ∧ Effect.saveIdentity a key ∈ ops := by
  cases h with
  | none => left; simp [Store.applyAll]
  | save key =>
    match k with
    | 0 => left; rfl
    | k + 1 => right; exact ⟨key, by simp [Store.applyAll, Store.apply], by simp⟩
  | store key r =>
    match k with
    | 0 => left; rfl
    | 1 => right; exact ⟨key, rfl, by simp⟩
    | k + 2 => simp [Effect.isStore] at hs
  | remove key r id =>
    match k with
    | 0 => left; rfl
    | 1 => right; exact ⟨key, rfl, by simp⟩
    | k + 2 => simp [Effect.isStore] at hs

/-- A made-up packet arrives; the call on it is cut off before it stores a session. -/
theorem Inv.injectCut {X : Setup} (hcl : X.clean) {w : World} {c : Conv} {es : Nat → Key32} {left : Nat} (h : Inv X w c es (left + 2)) (s : Side) (p : Packet) (k : Nat)
    (hpin : s = .bob → (∃ b, p = .preKey b) → X.Pinned)
    (hno : NoSession (((w.node s).ops (X.env s) (X.addr s.peer) p).take k)) :
    Inv X ⟨upd w.node s ((w.node s).cut ((w.node s).ops (X.env s) (X.addr s.peer) p) ((w.node s).hear (X.env s) (X.addr s.peer) p).2.pos k), w.wire⟩ c es left := by
  have hpos := Node.hear_pos (E := X.env s) (p := p) (h.prev_nil hcl s)
  have hshape := Node.ops_shape (X.env s) (X.addr s.peer) (w.node s) p
  have hstore : (((w.node s).ops (X.env s) (X.addr s.peer) p).take k).any Effect.isStore = false := by
    rw [List.any_eq_false]
    intro e he
    cases e with
    | storeSession a r => exact absurd he (hno a r)
    | saveIdentity a k => simp [Effect.isStore]
    | removePreKey id => simp [Effect.isStore]
  have hundone := cut_undone hshape (w.node s).st k hstore
  have hsaved : (((w.node s).st.applyAll (((w.node s).ops (X.env s) (X.addr s.peer) p).take k)).1 = (w.node s).st) ∨
      ∃ key, ((w.node s).st.applyAll (((w.node s).ops (X.env s) (X.addr s.peer) p).take k)).1 = { (w.node s).st with identities := upd (w.node s).st.identities (X.addr s.peer) key } ∧
        Effect.saveIdentity (X.addr s.peer) key ∈ (w.node s).ops (X.env s) (X.addr s.peer) p := cut_saved hshape (w.node s).st k hstore
  refine h.untouched s hpos ?_ ?_
  · intro st hb
    rcases hundone with h3 | ⟨key, h3, -⟩
    · simp only [Backed, Node.cut, h3] at hb ⊢; exact hb
    · simp only [Backed, Node.cut, h3] at hb ⊢
      rcases hb with ⟨ps, q1, q2⟩ | q
      · exact .inl ⟨ps, q1.saveIdentity _, q2⟩
      · exact .inr q
  · rintro rfl
    rcases hsaved with h3 | ⟨key, h3, hm⟩
    · simp only [Node.cut, h3]; exact ⟨h.spk, h.ident⟩
    · simp only [Node.cut, h3]
      refine ⟨h.spk, .inr ?_⟩
      have hkey : key = some (X.ident .alice) := by
        cases p with
        | preKey b =>
          simp only [Node.ops] at hm
          cases hp : newPreKeyMessageFromBytes (X.env .bob).P (X.env .bob).S b with
          | err e => simp [hp] at hm
          | panic => simp [hp] at hm
          | ok m =>
            simp only [hp] at hm
            obtain ⟨ht, rfl⟩ := decryptPreKeyTrace_saves hm
            rw [hpin rfl ⟨b, rfl⟩ _ _ h.ident ht]
        | signal b =>
          simp only [Node.ops] at hm
          cases hp : newSignalMessageFromBytes (X.env .bob).S b with
          | err e => simp [hp] at hm
          | panic => simp [hp] at hm
          | ok m =>
            simp only [hp] at hm
            obtain ⟨hs, r, hl, hk⟩ := decryptTrace_saves hm
            rw [hk (h.prev_nil hcl .bob r hl)]
            obtain ⟨st0, hh, hb0⟩ := h.party .bob
            rcases hb0 with ⟨ps, hb, hps, -⟩ | ⟨-, -, -, hb, -⟩
            · rw [hb.load, Res.ok.injEq] at hl
              rw [← hl, ofStates_state]
              exact hh.rem
            · exact absurd (hb hcl) hs
      rw [hkey]
      show upd _ (X.addr .alice) _ (X.addr .alice) = _
      simp [upd]

/-! ### Everything at once -/

theorem Node.cut_reachable {E : Env} {n : Node} {a : Addr} {p : Packet} (h : n.st.AllReachable) (pos k : Nat) : (n.cut (n.ops E a p) pos k).st.AllReachable := by
  have hops : ∀ b r, Effect.storeSession b r ∈ n.ops E a p → Reachable r := by
    cases p with
    | signal b =>
      simp only [Node.ops]
      cases newSignalMessageFromBytes E.S b with
      | ok m => exact (callOps_frame (E := E) n.pos (.decrypt a m) h).1
      | err e => simp
      | panic => simp
    | preKey b =>
      simp only [Node.ops]
      cases newPreKeyMessageFromBytes E.P E.S b with
      | ok m => exact (callOps_frame (E := E) n.pos (.decryptPreKey a m) h).1
      | err e => simp
      | panic => simp
  exact applyAll_reachable h fun b r hr => hops b r (List.mem_of_mem_take hr)

theorem World.wstep_reachable {env : Side → Env} {addr : Side → Addr} {w : World} (hw : ∀ s, (w.node s).st.AllReachable) (e : WEvent)
    (hp : ∀ s d, e = .other s d → ¬ d.what.About (addr s.peer)) : ∀ s, ((w.wstep env addr e).2.node s).st.AllReachable := by
  cases e with
  | talk e dies =>
    cases dies with
    | none => exact World.hstep_reachable hw (.honest e)
    | some k =>
      cases e with
      | say s text =>
        exact upd_reachable hw (applyAll_reachable (hw s) fun b r hr => (callOps_frame (E := env s) 0 (.encrypt (addr s.peer) text) (hw s)).1 b r (List.mem_of_mem_take hr))
      | deliver i =>
        simp only [World.wstep, World.xstep]
        cases hx : w.wire[i]? with
        | none => exact hw
        | some q => obtain ⟨s, p⟩ := q; exact upd_reachable hw (Node.cut_reachable (hw _) _ _)
  | inject s p dies =>
    cases dies with
    | none => exact upd_reachable hw (Node.hear_reachable (hw s))
    | some k => exact upd_reachable hw (Node.cut_reachable (hw s) _ _)
  | other s d => exact upd_reachable hw (deed_frame d (hw s) (hp s d rfl)).1

theorem Inv.wrun {X : Setup} (hX : X.Ok) (hcl : X.clean) (evs : List WEvent) (hl : ∀ s t dies, WEvent.talk (.say s t) dies ∈ evs → t.length < 2 ^ 63)
    (hpin : (∃ b dies, WEvent.inject .bob (.preKey b) dies ∈ evs) → X.Pinned)
    (hother : ∀ s d, WEvent.other s d ∈ evs → ¬ d.what.About (X.addr s.peer) ∧ (s = .bob → ¬ d.what.NeedsPreKey X.otId ∧ ¬ d.what.ReplacesSigned X.spkId)) :
    ∀ {w : World} {c : Conv} {es : Nat → Key32}, Inv X w c es (42 * evs.length) → (∀ s, (w.node s).st.AllReachable) →
      (∀ ops, WOut.injected ops ∈ w.wrun X.env X.addr evs → NoSession ops) →
      ∀ outs, c.runWithCrashes (conversation evs (w.wrun X.env X.addr evs)) = some outs → All2 Matches outs (talkOuts (w.wrun X.env X.addr evs)) := by
  induction evs with
  | nil => intro w c es _ _ _ outs ho; simp only [World.wrun, conversation, Talk.Conv.runWithCrashes, Option.some.injEq] at ho; subst ho; exact .nil
  | cons ev evs ih =>
    intro w c es h hw hno outs ho
    have ih := @ih (fun s t dies hm => hl s t dies (List.mem_cons_of_mem _ hm)) (fun ⟨b, dies, hb⟩ => hpin ⟨b, dies, List.mem_cons_of_mem _ hb⟩)
      (fun s x hm => hother s x (List.mem_cons_of_mem _ hm))
    have hw' := World.wstep_reachable (env := X.env) (addr := X.addr) hw ev (fun s d he => (hother s d (he ▸ List.mem_cons_self ..)).1)
    simp only [World.wrun] at hno ho ⊢
    have hno1 : ∀ ops, (w.wstep X.env X.addr ev).1 = .injected ops → NoSession ops := fun ops he => hno ops (by rw [he]; exact List.mem_cons_self ..)
    have hno2 : ∀ ops, WOut.injected ops ∈ ((w.wstep X.env X.addr ev).2).wrun X.env X.addr evs → NoSession ops := fun ops hm => hno ops (List.mem_cons_of_mem _ hm)
    have hlen : 42 * (ev :: evs).length = 42 * evs.length + 42 := by simp only [List.length_cons]; omega
    rw [hlen] at h
    have h2 := h.weaken (l' := 42 * evs.length + 2) (by omega)
    cases ev with
    | other s d =>
      obtain ⟨q1, q2⟩ := hother s d (List.mem_cons_self ..)
      exact ih (h.deed s d (hw s) q1 q2) hw' hno2 outs ho
    | inject s p dies =>
      have hp : s = .bob → (∃ b, p = .preKey b) → X.Pinned := fun hs ⟨b, hb⟩ => hpin ⟨b, dies, by subst hs hb; exact List.mem_cons_self ..⟩
      cases dies with
      | none => exact ih (h2.inject hcl s p hp (hno1 _ rfl)) hw' hno2 outs ho
      | some k => exact ih (h2.injectCut hcl s p k hp (hno1 _ rfl)) hw' hno2 outs ho
    | talk e dies =>
      cases dies with
      | some k =>
        obtain ⟨b, w', hx⟩ : ∃ b w', w.xstep X.env X.addr (.crash e k) = (.crashed b, w') := by
          cases e with
          | say s t => exact ⟨_, _, rfl⟩
          | deliver i =>
            simp only [World.xstep]
            split
            · exact ⟨_, _, rfl⟩
            · exact ⟨_, _, rfl⟩
        have hwx : w.wstep X.env X.addr (.talk e (some k)) = (.talk (.crashed b), w') := by simp only [World.wstep, hx]
        rw [hwx] at ho hw' hno2 ⊢
        simp only [conversation, Talk.Conv.runWithCrashes, talkOuts] at ho ⊢
        cases hc : c.lose e b with
        | none => simp [hc] at ho
        | some c' =>
          simp only [hc] at ho
          obtain ⟨es', hi⟩ := h2.lose hX hcl e k (fun s t he => hl s t (some k) (by rw [← he]; exact List.mem_cons_self ..)) hx hc
          exact ih hi hw' hno2 outs ho
      | none =>
        have hs := h2.hstep hX hcl (.honest e) (fun s t he => hl s t none (by cases he; exact List.mem_cons_self ..)) (fun ⟨b, hb⟩ => by cases hb) (fun r ops hm => by cases hm)
        simp only [World.wstep, World.xstep, conversation, Talk.Conv.runWithCrashes, talkOuts] at ho hw' hno2 ⊢
        cases hc : c.step e with
        | none => simp [hc] at ho
        | some q =>
          obtain ⟨o, c'⟩ := q
          simp only [hc, Option.map_eq_some_iff] at ho
          obtain ⟨os, ho1, rfl⟩ := ho
          obtain ⟨o', es', q1, q2, q3⟩ := hs o c' hc
          simp only [World.hstep, HOut.honest.injEq] at q1 q3
          rw [q1]
          exact .cons q2 (ih q3 hw' hno2 os ho1)

/-- **C100.** C03, C68, C79 and C81 at once.  Alice processed Bob's bundle (as in C03); from then on, in any order:
the users send texts; the network delivers sent messages in any order, any number of times, and packets it made up (C68: those that the library takes for genuine are excluded,
`refused`, and first contact is pinned); both users do anything they like with other peers and with their stores (C79), except that Bob does not use up, replace or remove the two
prekeys of Alice's bundle; and either user may die during any of these calls, after any number of its store operations, and continue with what the stores hold (C81).
Then every completed call of the conversation returns exactly what the specification (Spec/Talk, Spec/TalkCrash) says. -/
theorem C100_everything {C : Crypto} (hdh : C.DhLaw) (haes : C.AesLaw) {A B : Env} {addrA addrB : Addr} {stA stB stA' : Store} {posA posB posA' : Nat}
    {b : Bundle} {spk ot : IdKeyPair} (evs : List WEvent) (h : Meeting C A B addrA addrB stA stB stA' posA posB posA' b spk ot (42 * evs.length))
    (hn : 42 * evs.length < 2 ^ 32) (ht : ∀ s t dies, WEvent.talk (.say s t) dies ∈ evs → t.length < 2 ^ 63)
    (reachA : ∀ a r, stA'.load a = .ok r → Reachable r) (reachB : ∀ a r, stB.load a = .ok r → Reachable r)
    (othersA : ∀ d, WEvent.other .alice d ∈ evs → ¬ d.what.About addrB)
    (othersB : ∀ d, WEvent.other .bob d ∈ evs →
      ¬ d.what.About addrA ∧ (∀ id, b.preKeyId = some (OptU32.new id) → ¬ d.what.NeedsPreKey id) ∧ ¬ d.what.ReplacesSigned b.signedPreKeyId)
    (pinned : (∃ b dies, WEvent.inject .bob (.preKey b) dies ∈ evs) → ∀ ids k,
      (stB.identities addrA = none ∧ ids addrA = none) ∨ ids addrA = some A.identity.pub → B.trusted ids addrA k = true → k = A.identity.pub)
    (refused : ∀ ops, WOut.injected ops ∈ World.wrun (sides A B) (sides addrA addrB) ⟨sides ⟨stA', posA'⟩ ⟨stB, posB⟩, []⟩ evs → NoSession ops)
    (outs : List Outcome)
    (ho : Conv.start.runWithCrashes (conversation evs (World.wrun (sides A B) (sides addrA addrB) ⟨sides ⟨stA', posA'⟩ ⟨stB, posB⟩, []⟩ evs)) = some outs) :
    All2 Matches outs (talkOuts (World.wrun (sides A B) (sides addrA addrB) ⟨sides ⟨stA', posA'⟩ ⟨stB, posB⟩, []⟩ evs)) := by
  obtain ⟨X, es, hX, h1, h2, h3, hcl, ⟨h4, h5⟩, hi⟩ := h.inv hdh haes hn
  rw [← h1, ← h2] at refused ho ⊢
  refine hi.wrun hX hcl evs ht ?_ ?_ ?_ refused outs ho
  · intro hb ids k hk
    have := pinned hb ids k
    simp only [Setup.ident, h1, h2, h3, sides] at hk ⊢
    exact this hk
  · intro s x hm
    rw [h2]
    cases s with
    | alice => exact ⟨othersA x hm, fun hx => by simp at hx⟩
    | bob =>
      obtain ⟨o1, o2, o3⟩ := othersB x hm
      exact ⟨o1, fun _ => ⟨o2 _ h4, by rw [h5]; exact o3⟩⟩
  · intro s; cases s
    · exact reachA
    · exact reachB

section
open Toy

/-- A forged prekey message kills Bob after it had its identity saved; Alice dies while she processes Carol's bundle, Bob while he reads Carol's message and twice while he reads Alice's;
Alice dies after she encrypted a message; a forged message reaches Alice; she dies when she reads Bob's. -/
def toyWhole : List WEvent :=
  [.talk (.say .alice [1]) none, .inject .bob (.preKey (forgedPreKey aliceEnv.identity.pub (key 77))) (some 1), .other .alice ⟨.call (.processBundle carol bundle2), some 1⟩,
   .other .bob ⟨.storePreKey 10 oneTime2, none⟩, .other .bob ⟨.call (.decryptPreKey carol carolMsg), some 2⟩, .talk (.deliver 0) (some 1), .talk (.deliver 0) none,
   .talk (.say .alice [2]) (some 2), .talk (.say .alice [3]) none, .talk (.deliver 1) none, .talk (.say .bob [4]) none, .inject .alice (.signal forgedInner) none,
   .talk (.deliver 2) (some 0), .talk (.deliver 2) none]

set_option maxRecDepth 100000 in
theorem toy_meeting_whole : Meeting Toy.C aliceW bobW Toy.alice Toy.bob emptyStore bobKnows aliceW1 0 0 2 bundle signedPre oneTime (42 * toyWhole.length) := by
  refine ⟨rfl, rfl, .inl ⟨rfl, rfl⟩, ⟨rfl, rfl⟩, rfl, rfl, rfl, rfl, rfl, rfl, rfl, ⟨9, rfl, by decide, rfl⟩, rfl, rfl, rfl, .inr (by simp [bobKnows, upd]; rfl), ?_, ?_, ⟨?_, ?_⟩, ⟨?_, ?_⟩, ?_⟩
  · intro ids h
    show (match ids Toy.alice with | none => true | some k' => k' == aliceEnv.identity.pub) = true
    rcases h with h | h <;> rw [h]
    simp
    rfl
  · refine Prod.ext (by decide +kernel) (Prod.ext rfl (by decide +kernel))
  · intro i _ _ h; simp [aliceW, wideRng] at h
  · intro i j h1 h2 h3 he
    simp only [toyWhole, List.length_cons, List.length_nil] at h3
    have := wideA i (by omega); rw [he, wideA j (by omega)] at this; omega
  · intro i _ _ h; simp [bobW, wideRng] at h
  · intro i j h1 h2 h3 he
    simp only [toyWhole, List.length_cons, List.length_nil] at h3
    have := wideB i (by omega); rw [he, wideB j (by omega)] at this; omega
  · intro i h1 h2 he
    simp only [toyWhole, List.length_cons, List.length_nil] at h2
    have := wideB i (by omega)
    rw [he] at this
    have h3 : widePos (some signedPre.pub) = 10280 := by decide +kernel
    omega

def toyWholeStart : World := ⟨sides ⟨aliceW1, 2⟩ ⟨bobKnows, 0⟩, []⟩

/-- No made-up packet makes the library store a session. -/
def noneTaken : List WOut → Bool
  | [] => true
  | .injected ops :: os => !ops.any Effect.isStore && noneTaken os
  | _ :: os => noneTaken os

theorem noneTaken_spec {l : List WOut} (h : noneTaken l = true) {ops : List Effect} (hm : WOut.injected ops ∈ l) : NoSession ops := by
  induction l with
  | nil => simp at hm
  | cons o os ih =>
    cases o with
    | talk x =>
      simp only [List.mem_cons, reduceCtorEq, false_or] at hm
      exact ih h hm
    | other =>
      simp only [List.mem_cons, reduceCtorEq, false_or] at hm
      exact ih h hm
    | injected l =>
      simp only [noneTaken, Bool.and_eq_true, Bool.not_eq_true'] at h
      simp only [List.mem_cons, WOut.injected.injEq] at hm
      rcases hm with rfl | hm
      · intro a r hr
        have := List.any_eq_false.1 h.1 _ hr
        simp [Effect.isStore] at this
      · exact ih h.2 hm

theorem toyWhole_refused : noneTaken (World.wrun (sides aliceW bobW) (sides Toy.alice Toy.bob) toyWholeStart toyWhole) = true := by decide +kernel
theorem toyWhole_spec : Conv.start.runWithCrashes (conversation toyWhole (World.wrun (sides aliceW bobW) (sides Toy.alice Toy.bob) toyWholeStart toyWhole)) =
    some [.said, .got [1], .said, .got [3], .said, .got [4]] := by decide +kernel

/-- Non-vacuity of C100. -/
example : All2 Matches [.said, .got [1], .said, .got [3], .said, .got [4]] (talkOuts (World.wrun (sides aliceW bobW) (sides Toy.alice Toy.bob) toyWholeStart toyWhole)) := by
  have hempty : ∀ (st : Store), st.sessions = (fun _ => none) → st.AllReachable := by
    intro st hs a r hr
    simp only [Store.load, hs, Res.ok.injEq] at hr
    rw [← hr]; exact .new
  refine C100_everything Toy.dhLaw Toy.aesLaw toyWhole toy_meeting_whole (by decide) ?_ ?_ (hempty _ rfl) ?_ ?_ ?_ (fun ops hm => noneTaken_spec toyWhole_refused hm) _ toyWhole_spec
  · intro s t dies hm
    simp only [toyWhole, List.mem_cons, WEvent.talk.injEq, Event.say.injEq, reduceCtorEq, false_or, or_false, false_and, List.not_mem_nil] at hm
    rcases hm with ⟨⟨-, rfl⟩, -⟩ | ⟨⟨-, rfl⟩, -⟩ | ⟨⟨-, rfl⟩, -⟩ | ⟨⟨-, rfl⟩, -⟩ <;> decide
  · have := (call_frame (E := aliceW) 0 (.processBundle bob bundle) (hempty emptyStore rfl)).1
    simp only [Store.call] at this
    exact this
  · intro d hm
    simp only [toyWhole, List.mem_cons, WEvent.other.injEq, reduceCtorEq, false_and, true_and, false_or, or_false, List.not_mem_nil] at hm
    subst hm
    simp only [Errand.About, Call.addr]; decide
  · intro d hm
    have hid : carolMsg.struct.preKeyId = some (OptU32.new 10) := by decide +kernel
    simp only [toyWhole, List.mem_cons, WEvent.other.injEq, reduceCtorEq, false_and, true_and, false_or, or_false, List.not_mem_nil] at hm
    have h9 : ∀ id, bundle.preKeyId = some (OptU32.new id) → id = 9 := by
      intro id h; simp only [bundle, OptU32.new, Option.some.injEq, OptU32.mk.injEq, and_true] at h; exact h.symm
    rcases hm with rfl | rfl <;> refine ⟨?_, fun id h => ?_, ?_⟩ <;> try (have := h9 id h; subst this)
    all_goals simp only [Errand.About, Errand.NeedsPreKey, Errand.ReplacesSigned, Call.addr, hid, Option.some.injEq, exists_eq_left', OptU32.new, not_false_eq_true]
    all_goals decide
  · intro _ ids k h ht
    rcases h with ⟨h, -⟩ | h
    · simp [bobKnows, upd] at h
    · have ht : (match ids Toy.alice with | none => true | some k' => k' == k) = true := ht
      rw [h] at ht
      simpa using (beq_iff_eq.1 ht).symm

/-- In this schedule the calls that are cut off do leave something behind: Alice's session with Carol, Bob's session with Carol and the prekey he would have removed. -/
example : let w := (toyWhole.take 5).foldl (fun w e => (World.wstep (sides aliceW bobW) (sides Toy.alice Toy.bob) w e).2) toyWholeStart
    ((w.node .alice).st.sessions carol).isSome ∧ ((w.node .alice).st.identities carol) = none ∧ ((w.node .bob).st.sessions carol).isSome ∧ ((w.node .bob).st.preKeys 10) = some oneTime2 := by
  decide +kernel
end

end Verif
