import Verif.Props.Conversation
import Verif.Props.Crash
import Verif.Model.Hostile
/-
C68: packets made up by the network do not disturb a conversation.
-/
set_option linter.unusedSimpArgs false
namespace Verif
open Talk (Side Party Conv Note Event Outcome)

/-- No session is stored. -/
def NoSession (ops : List Effect) : Prop := ∀ a r, Effect.storeSession a r ∉ ops

/-! ### How far the random source is read -/

theorem tryPrevious_pos (E : Env) (m : SignalMsg) (l : List Nat) : ∀ (i : Nat) (r : Rec) (pos : Nat),
    pos ≤ (tryPrevious E m l i r pos).2.2 ∧ (tryPrevious E m l i r pos).2.2 ≤ pos + l.length := by
  induction l with
  | nil => intro i r pos; simp [tryPrevious]
  | cons a rest ih =>
    intro i r pos
    have hb : ∀ d, pos ≤ bump pos d ∧ bump pos d ≤ pos + 1 := by intro d; unfold bump; split <;> omega
    simp only [tryPrevious, List.length_cons]
    split
    · rename_i s' d _
      have := ih (i + 1) (r.set a s') (bump pos d)
      have := hb d
      omega
    · rename_i s' d _
      have := hb d
      simp only; omega
    · rename_i s' d _
      have := hb d
      simp only; omega

theorem decryptWithRecord_pos (E : Env) (pos : Nat) (r : Rec) (m : SignalMsg) :
    pos ≤ (decryptWithRecord E pos r m).2.2 ∧ (decryptWithRecord E pos r m).2.2 ≤ pos + 1 + r.prev.length := by
  have hb : ∀ d, pos ≤ bump pos d ∧ bump pos d ≤ pos + 1 := by intro d; unfold bump; split <;> omega
  unfold decryptWithRecord
  split
  · rename_i d _; have := hb d; simp only; omega
  · rename_i d _; have := hb d; simp only; omega
  · rename_i s' d _
    have := hb d
    have := tryPrevious_pos E m r.prev 0 (r.set r.cur s') (bump pos d)
    omega

theorem processV3_prev (E : Env) (pk spk : UInt32 → Option IdKeyPair) (r : Rec) (m : PreKeyMsg) :
    (processV3 E pk spk r m).2.prev.length ≤ r.prev.length + 1 := by
  have harch : r.archiveCurrentState.prev.length ≤ r.prev.length + 1 := by
    simp only [Rec.archiveCurrentState, Rec.promote]
    split <;> simp
  have hif : (if r.fresh then r else r.archiveCurrentState).prev.length ≤ r.prev.length + 1 := by split <;> omega
  unfold processV3
  split
  · simp
  · split
    · simp
    · simp only
      split
      · simp
      · simp
      · split
        · exact hif
        · exact hif
        · exact hif

theorem process_prev (E : Env) (ids : Addr → Option Key32) (pk spk : UInt32 → Option IdKeyPair) (a : Addr) (r : Rec) (m : PreKeyMsg) :
    (process E ids pk spk a r m).2.1.prev.length ≤ r.prev.length + 1 := by
  have := processV3_prev E pk spk r m
  unfold process
  split
  · simp
  · split <;> simp_all

theorem decryptRec_pos (E : Env) (pos : Nat) (a : Addr) (r : Rec) (m : SignalMsg) :
    pos ≤ (decryptRec E pos a r m).2.2.1 ∧ (decryptRec E pos a r m).2.2.1 ≤ pos + 1 + r.prev.length := by
  have := decryptWithRecord_pos E pos r m
  unfold decryptRec
  split <;> simp_all

theorem decryptPreKeyRec_pos (E : Env) (ids : Addr → Option Key32) (pk spk : UInt32 → Option IdKeyPair) (pos : Nat) (a : Addr) (r : Rec)
    (m : PreKeyMsg) : pos ≤ (decryptPreKeyRec E ids pk spk pos a r m).2.2.1 ∧
      (decryptPreKeyRec E ids pk spk pos a r m).2.2.1 ≤ pos + 2 + r.prev.length := by
  have hp := process_prev E ids pk spk a r m
  unfold decryptPreKeyRec
  cases hpr : process E ids pk spk a r m with
  | mk res x =>
    obtain ⟨r1, eff⟩ := x
    rw [hpr] at hp
    have hd := decryptWithRecord_pos E pos r1 m.message
    simp only at hp
    cases res with
    | err e => simp only; omega
    | panic => simp only; omega
    | ok id =>
      simp only
      cases hdr : decryptWithRecord E pos r1 m.message with
      | mk res2 y =>
        obtain ⟨r2, pos'⟩ := y
        rw [hdr] at hd
        simp only at hd
        cases res2 with
        | err e => simp only; omega
        | panic => simp only; omega
        | ok x =>
          simp only
          cases id with
          | none => simp only; omega
          | some o => simp only; split <;> (simp only; omega)

/-! ### Store operations of a call that stores no session -/

theorem decryptTrace_noSession {E : Env} {st : Store} {pos : Nat} {a : Addr} {m : SignalMsg} (h : NoSession (st.decryptTrace E pos a m).2.2) :
    (st.decryptTrace E pos a m).2.2 = [] := by
  unfold Store.decryptTrace at h ⊢
  split
  · rfl
  · rename_i hs
    simp only [hs] at h
    cases hl : st.load a with
    | err e => rfl
    | panic => rfl
    | ok r =>
      simp only [hl] at h ⊢
      unfold decryptRec at h ⊢
      cases hd : decryptWithRecord E pos r m with
      | mk res y =>
        obtain ⟨r2, pos'⟩ := y
        rw [hd] at h
        cases res with
        | err e => rfl
        | panic => rfl
        | ok x => exact absurd (by simp) (h a r2)

theorem decryptPreKeyTrace_noSession {E : Env} {st : Store} {pos : Nat} {a : Addr} {m : PreKeyMsg}
    (h : NoSession (st.decryptPreKeyTrace E pos a m).2.2) :
    (st.decryptPreKeyTrace E pos a m).2.2 = [] ∨
      (E.trusted st.identities a m.identityKey = true ∧ (st.decryptPreKeyTrace E pos a m).2.2 = [.saveIdentity a (some m.identityKey)]) := by
  unfold Store.decryptPreKeyTrace at h ⊢
  cases hl : st.load a with
  | err e => exact .inl rfl
  | panic => exact .inl rfl
  | ok r =>
    simp only [hl] at h ⊢
    unfold decryptPreKeyRec at h ⊢
    have heff : (process E st.identities st.preKeys st.signedPreKeys a r m).2.2 = [] ∨
        (E.trusted st.identities a m.identityKey = true ∧
          (process E st.identities st.preKeys st.signedPreKeys a r m).2.2 = [.saveIdentity a (some m.identityKey)]) := by
      unfold process
      split
      · exact .inl rfl
      · rename_i ht
        split
        · exact .inl rfl
        · exact .inl rfl
        · exact .inr ⟨by simpa using ht, rfl⟩
    cases hpr : process E st.identities st.preKeys st.signedPreKeys a r m with
    | mk res x =>
      obtain ⟨r1, eff⟩ := x
      rw [hpr] at h heff
      simp only at heff
      cases res with
      | err e => exact heff
      | panic => exact heff
      | ok id =>
        simp only at h ⊢
        cases hd : decryptWithRecord E pos r1 m.message with
        | mk res2 y =>
          obtain ⟨r2, pos'⟩ := y
          rw [hd] at h
          cases res2 with
          | err e => exact heff
          | panic => exact heff
          | ok x =>
            exfalso
            simp only at h
            cases id with
            | none => exact h a r2 (by simp)
            | some o =>
              simp only at h
              split at h
              · exact h a r2 (by simp)
              · exact h a r2 (by simp)

/-- A call on a packet that stores no session: the stored data is as before, except that a trusted identity named by a prekey packet may have been
saved; and at most two random values per stored state were drawn. -/
theorem Node.hear_noSession {E : Env} {a : Addr} {n : Node} {p : Packet} (h : NoSession (n.ops E a p))
    (hprev : ∀ r, n.st.load a = .ok r → r.prev = []) :
    n.pos ≤ ((n.hear E a p).2).pos ∧ ((n.hear E a p).2).pos ≤ n.pos + 2 ∧
    (((n.hear E a p).2).st = n.st ∨
      ∃ b m, p = .preKey b ∧ E.trusted n.st.identities a m.identityKey = true ∧ newPreKeyMessageFromBytes E.P E.S b = .ok m ∧
        ((n.hear E a p).2).st = { n.st with identities := upd n.st.identities a (some m.identityKey) }) := by
  cases p with
  | signal b =>
    simp only [Node.hear, Node.ops] at h ⊢
    cases hp : newSignalMessageFromBytes E.S b with
    | err e => exact ⟨Nat.le_refl _, Nat.le_add_right .., .inl rfl⟩
    | panic => exact ⟨Nat.le_refl _, Nat.le_add_right .., .inl rfl⟩
    | ok m =>
      simp only [hp] at h ⊢
      have h0 := decryptTrace_noSession h
      have hpos : n.pos ≤ (n.st.decryptTrace E n.pos a m).2.1 ∧ (n.st.decryptTrace E n.pos a m).2.1 ≤ n.pos + 2 := by
        unfold Store.decryptTrace
        split
        · simp
        · cases hl : n.st.load a with
          | err e => simp
          | panic => simp
          | ok r =>
            simp only
            have := decryptRec_pos E n.pos a r m
            rw [hprev r hl] at this
            exact ⟨this.1, Nat.le_succ_of_le this.2⟩
      refine ⟨hpos.1, hpos.2, .inl ?_⟩
      simp only [Store.decrypt, finish_snd, h0, Store.applyAll]
  | preKey b =>
    simp only [Node.hear, Node.ops] at h ⊢
    cases hp : newPreKeyMessageFromBytes E.P E.S b with
    | err e => exact ⟨Nat.le_refl _, Nat.le_add_right .., .inl rfl⟩
    | panic => exact ⟨Nat.le_refl _, Nat.le_add_right .., .inl rfl⟩
    | ok m =>
      simp only [hp] at h ⊢
      have h0 := decryptPreKeyTrace_noSession h
      have hpos : n.pos ≤ (n.st.decryptPreKeyTrace E n.pos a m).2.1 ∧ (n.st.decryptPreKeyTrace E n.pos a m).2.1 ≤ n.pos + 2 := by
        unfold Store.decryptPreKeyTrace
        cases hl : n.st.load a with
        | err e => simp
        | panic => simp
        | ok r =>
          simp only
          have := decryptPreKeyRec_pos E n.st.identities n.st.preKeys n.st.signedPreKeys n.pos a r m
          rw [hprev r hl] at this
          exact ⟨this.1, this.2⟩
      refine ⟨hpos.1, hpos.2, ?_⟩
      rcases h0 with h0 | ⟨ht, h0⟩
      · left; simp only [Store.decryptPreKey, finish_snd, h0, Store.applyAll]
      · exact .inr ⟨b, m, rfl, ht, hp, by simp only [Store.decryptPreKey, finish_snd, h0, Store.applyAll, Store.apply]⟩

theorem Inv.weaken {X : Setup} {w : World} {c : Conv} {es : Nat → Key32} {l l' : Nat} (h : Inv X w c es l) (hl : l' ≤ l) : Inv X w c es l' :=
  ⟨h.wire, h.party, h.near, h.parity, h.keys, h.dist, fun s => by have := h.room s; omega, h.spk, h.ident⟩

/-- Bob accepts no key but Alice's own for her address. -/
def Setup.Pinned (X : Setup) : Prop :=
  ∀ ids k, ((X.tofu ∧ ids (X.addr .alice) = none) ∨ ids (X.addr .alice) = some (X.ident .alice)) →
    (X.env .bob).trusted ids (X.addr .alice) k = true → k = X.ident .alice

/-- A made-up packet arrives and is not accepted. -/
theorem Inv.inject {X : Setup} (hcl : X.clean) {w : World} {c : Conv} {es : Nat → Key32} {left : Nat} (h : Inv X w c es (left + 2)) (s : Side) (p : Packet)
    (hpin : s = .bob → (∃ b, p = .preKey b) → X.Pinned)
    (hno : NoSession ((w.node s).ops (X.env s) (X.addr s.peer) p)) :
    Inv X ⟨upd w.node s ((w.node s).hear (X.env s) (X.addr s.peer) p).2, w.wire⟩ c es left := by
  obtain ⟨st0, -, hb0⟩ := h.party s
  have hprev : ∀ r, (w.node s).st.load (X.addr s.peer) = .ok r → r.prev = [] := by
    intro r hr
    rcases hb0 with ⟨ps, hb, hps, -⟩ | ⟨hs, -, -, hb, -⟩
    · rw [hb.load, hps hcl] at hr
      cases hr; rfl
    · subst hs
      simp only [Side.peer, Store.load, hb hcl, Res.ok.injEq] at hr
      rw [← hr]; rfl
  obtain ⟨h1, h2, h3⟩ := Node.hear_noSession hno hprev
  refine h.untouched s ⟨h1, h2⟩ ?_ ?_
  · intro st hb
    rcases h3 with h3 | ⟨b, m, -, -, -, h3⟩
    · simp only [Backed, h3] at hb ⊢; exact hb
    · simp only [Backed, h3] at hb ⊢
      rcases hb with ⟨ps, q1, q2⟩ | q
      · exact .inl ⟨ps, q1.saveIdentity _, q2⟩
      · exact .inr q
  · rintro rfl
    rcases h3 with h3 | ⟨b, m, hb, ht, -, h3⟩
    · rw [h3]; exact ⟨h.spk, h.ident⟩
    · rw [h3]
      refine ⟨h.spk, .inr ?_⟩
      simp only [Side.peer] at ht ⊢
      rw [hpin rfl ⟨b, hb⟩ _ _ h.ident ht]
      simp [upd]

theorem Inv.hrun {X : Setup} (hX : X.Ok) (hcl : X.clean) (evs : List HEvent) (hl : ∀ s t, HEvent.honest (.say s t) ∈ evs → t.length < 2 ^ 63)
    (hpin : (∃ b, HEvent.inject .bob (.preKey b) ∈ evs) → X.Pinned) :
    ∀ {w : World} {c : Conv} {es : Nat → Key32}, Inv X w c es (2 * evs.length) →
      (∀ r ops, HOut.injected r ops ∈ w.hrun X.env X.addr evs → NoSession ops) →
      ∀ outs, c.run (honestEvents evs) = some outs → All2 Matches outs (honestOuts (w.hrun X.env X.addr evs)) := by
  induction evs with
  | nil => intro w c es _ _ outs ho; simp only [honestEvents, Talk.Conv.run, Option.some.injEq] at ho; subst ho; exact .nil
  | cons ev evs ih =>
    intro w c es h hno outs ho
    have ih := @ih (fun s t hm => hl s t (List.mem_cons_of_mem _ hm)) (fun ⟨b, hb⟩ => hpin ⟨b, List.mem_cons_of_mem _ hb⟩)
    simp only [World.hrun] at hno ⊢
    have hno2 : ∀ r ops, HOut.injected r ops ∈ ((w.hstep X.env X.addr ev).2).hrun X.env X.addr evs → NoSession ops :=
      fun r ops hm => hno r ops (List.mem_cons_of_mem _ hm)
    have hlen : 2 * (ev :: evs).length = 2 * evs.length + 2 := by simp only [List.length_cons]; omega
    rw [hlen] at h
    cases ev with
    | inject s p =>
      simp only [honestEvents] at ho
      simp only [World.hstep, honestOuts] at hno hno2 ⊢
      refine ih (h.inject hcl s p ?_ (hno _ _ (List.mem_cons_self ..))) hno2 outs ho
      rintro rfl ⟨b, rfl⟩
      exact hpin ⟨b, List.mem_cons_self ..⟩
    | honest ev =>
      have h := Inv.weaken (l' := 2 * evs.length + 1) h (by omega)
      simp only [honestEvents, Talk.Conv.run] at ho
      simp only [World.hstep, honestOuts] at hno2 ⊢
      clear hno
      cases ev with
      | say s text =>
        by_cases ht : (c.party s).turn = 0
        · simp [Talk.Conv.step, ht] at ho
        · obtain ⟨p, n, h1, h2⟩ := h.say hX s (hl s text (List.mem_cons_self ..)) ht
          have hstep : c.step (.say s text) = some (.said, c.said s text) := by simp only [Talk.Conv.step, if_neg ht]; rfl
          simp only [hstep, Option.map_eq_some_iff] at ho
          obtain ⟨os, ho1, rfl⟩ := ho
          simp only [World.step, h1] at hno2 ⊢
          exact .cons trivial (ih h2 hno2 _ ho1)
      | deliver i =>
        cases hn : c.notes[i]? with
        | none => simp [Talk.Conv.step, hn] at ho
        | some n =>
          obtain ⟨⟨sd, p⟩, hw, hp⟩ := all2_get h.wire hn
          have hsd : sd = n.sender := hp.side
          subst hsd
          have hd := h.deliver hX hp
          simp only [Talk.Conv.step, hn] at ho
          simp only [World.step, hw] at hno2 ⊢
          cases hv : (c.party n.sender.peer).receive n.turn n.number with
          | forgotten => rw [hv] at ho; simp at ho
          | refused =>
            rw [hv] at ho hd
            simp only [Option.map_eq_some_iff] at ho hd
            obtain ⟨os, ho1, rfl⟩ := ho
            obtain ⟨e, n', h1, h2⟩ := hd hcl
            rw [h1] at hno2 ⊢
            exact .cons trivial (ih h2 hno2 _ ho1)
          | accepted p' =>
            rw [hv] at ho hd
            simp only [Option.map_eq_some_iff] at ho hd
            obtain ⟨os, ho1, rfl⟩ := ho
            obtain ⟨n', es', h1, h2⟩ := hd
            rw [h1] at hno2 ⊢
            exact .cons rfl (ih h2 hno2 _ ho1)

/-- **C68.** The situation of C03, but the network also delivers packets it made up: any bytes, to either user, under the other's address, at any time.  As long as no
made-up packet makes the library store a session (it does so exactly when it takes a packet for a genuine message: see `C68_refused`), everything the users do and everything
they send to each other goes exactly as the specification (Spec/Talk) says, as if the made-up packets did not exist.  Made-up prekey packets to Bob are covered if Bob
accepts no key but Alice's for her address (`pinned`); otherwise see `C68_first_use_false`. -/
theorem C68_hostile_network {C : Crypto} (hdh : C.DhLaw) (haes : C.AesLaw) {A B : Env} {addrA addrB : Addr} {stA stB stA' : Store} {posA posB posA' : Nat}
    {b : Bundle} {spk ot : IdKeyPair} (evs : List HEvent) (h : Meeting C A B addrA addrB stA stB stA' posA posB posA' b spk ot (2 * evs.length))
    (hn : 2 * evs.length < 2 ^ 32) (ht : ∀ s t, HEvent.honest (.say s t) ∈ evs → t.length < 2 ^ 63)
    (pinned : (∃ b, HEvent.inject .bob (.preKey b) ∈ evs) → ∀ ids k,
      (stB.identities addrA = none ∧ ids addrA = none) ∨ ids addrA = some A.identity.pub → B.trusted ids addrA k = true → k = A.identity.pub)
    (refused : ∀ r ops, HOut.injected r ops ∈ World.hrun (sides A B) (sides addrA addrB) ⟨sides ⟨stA', posA'⟩ ⟨stB, posB⟩, []⟩ evs → NoSession ops)
    (outs : List Outcome) (ho : Conv.start.run (honestEvents evs) = some outs) :
    All2 Matches outs (honestOuts (World.hrun (sides A B) (sides addrA addrB) ⟨sides ⟨stA', posA'⟩ ⟨stB, posB⟩, []⟩ evs)) := by
  obtain ⟨X, es, hX, h1, h2, h3, hcl, -, hi⟩ := h.inv hdh haes hn
  rw [← h1, ← h2] at refused ⊢
  refine hi.hrun hX hcl evs ht ?_ refused outs ho
  intro hb ids k hids
  have hid : X.ident .alice = A.identity.pub := by simp only [Setup.ident, h1, sides]
  have ha : X.addr .alice = addrA := by rw [h2]; rfl
  rw [h3, hid, ha] at hids
  rw [hid, ha, h1]
  exact pinned hb ids k hids

theorem decryptTrace_ops (E : Env) (st : Store) (pos : Nat) (a : Addr) (m : SignalMsg) :
    (∀ e, (st.decryptTrace E pos a m).1 = .err e → NoSession (st.decryptTrace E pos a m).2.2) ∧
    (∀ x, (st.decryptTrace E pos a m).1 = .ok x → ∃ r, Effect.storeSession a r ∈ (st.decryptTrace E pos a m).2.2) := by
  unfold Store.decryptTrace
  split
  · simp [NoSession]
  · cases hl : st.load a with
    | err e => simp [NoSession]
    | panic => simp
    | ok r =>
      simp only
      unfold decryptRec
      cases hd : decryptWithRecord E pos r m with
      | mk res y =>
        obtain ⟨r2, pos'⟩ := y
        cases res <;> simp [NoSession]

theorem decryptPreKeyTrace_ops (E : Env) (st : Store) (pos : Nat) (a : Addr) (m : PreKeyMsg) :
    (∀ e, (st.decryptPreKeyTrace E pos a m).1 = .err e → NoSession (st.decryptPreKeyTrace E pos a m).2.2) ∧
    (∀ x, (st.decryptPreKeyTrace E pos a m).1 = .ok x → ∃ r, Effect.storeSession a r ∈ (st.decryptPreKeyTrace E pos a m).2.2) := by
  unfold Store.decryptPreKeyTrace
  cases hl : st.load a with
  | err e => simp [NoSession]
  | panic => simp
  | ok r =>
    simp only
    unfold decryptPreKeyRec
    have hfor := process_for E st.identities st.preKeys st.signedPreKeys a r m
    cases hpr : process E st.identities st.preKeys st.signedPreKeys a r m with
    | mk res x =>
      obtain ⟨r1, eff⟩ := x
      rw [hpr] at hfor
      have hns : NoSession eff := by intro a r hm; exact absurd (hfor _ hm) (by simp)
      cases res with
      | err e => exact ⟨fun _ _ => hns, fun _ h => by simp at h⟩
      | panic => exact ⟨fun _ _ => hns, fun _ h => by simp at h⟩
      | ok id =>
        simp only
        cases hd : decryptWithRecord E pos r1 m.message with
        | mk res2 y =>
          obtain ⟨r2, pos'⟩ := y
          cases res2 with
          | err e => exact ⟨fun _ _ => hns, fun _ h => by simp at h⟩
          | panic => exact ⟨fun _ _ => hns, fun _ h => by simp at h⟩
          | ok x =>
            simp only
            cases id with
            | none => simp
            | some o =>
              simp only
              split
              · exact ⟨fun e h => by simp at h, fun _ _ => ⟨r2, by simp⟩⟩
              · exact ⟨fun e h => by simp at h, fun _ _ => ⟨r2, by simp⟩⟩

/-- **C68 (what refusal means).** A call on any packet that returns an error stored no session; one that returned a plaintext did. -/
theorem C68_refused (E : Env) (peer : Addr) (n : Node) (p : Packet) :
    (∀ e, (n.hear E peer p).1 = .err e → NoSession (n.ops E peer p)) ∧
    (∀ t, (n.hear E peer p).1 = .ok t → ∃ r, Effect.storeSession peer r ∈ n.ops E peer p) := by
  have key : ∀ (res : Res (Bytes × MsgKeys)) (effs : List Effect),
      ((∀ e, res = .err e → NoSession effs) ∧ (∀ x, res = .ok x → ∃ r, Effect.storeSession peer r ∈ effs)) →
      (∀ e, (finish n.st res effs).1.map (·.1) = .err e → NoSession effs) ∧
      (∀ t, (finish n.st res effs).1.map (·.1) = .ok t → ∃ r, Effect.storeSession peer r ∈ effs) := by
    intro res effs ⟨h1, h2⟩
    rw [finish_fst]
    split
    · cases res with
      | err e => exact ⟨fun _ _ => h1 e rfl, fun _ h => by simp [Res.map] at h⟩
      | panic => exact ⟨fun _ h => by simp [Res.map] at h, fun _ h => by simp [Res.map] at h⟩
      | ok x => exact ⟨fun _ h => by simp [Res.map] at h, fun _ _ => h2 x rfl⟩
    · exact ⟨fun _ h => by simp [Res.map] at h, fun _ h => by simp [Res.map] at h⟩
  cases p with
  | signal b =>
    simp only [Node.hear, Node.ops]
    cases hp : newSignalMessageFromBytes E.S b with
    | err e => simp [NoSession]
    | panic => simp
    | ok m => exact key _ _ (decryptTrace_ops E n.st n.pos peer m)
  | preKey b =>
    simp only [Node.hear, Node.ops]
    cases hp : newPreKeyMessageFromBytes E.P E.S b with
    | err e => simp [NoSession]
    | panic => simp
    | ok m => exact key _ _ (decryptPreKeyTrace_ops E n.st n.pos peer m)

section
open Toy

/-- No made-up packet of a run made the library store a session. -/
def allRefused : List HOut → Bool
  | [] => true
  | .honest _ :: os => allRefused os
  | .injected _ ops :: os => ops.all (fun e => match e with | .storeSession .. => false | _ => true) && allRefused os

theorem allRefused_spec {l : List HOut} (h : allRefused l = true) {r : Res Bytes} {ops : List Effect} (hm : HOut.injected r ops ∈ l) : NoSession ops := by
  induction l with
  | nil => simp at hm
  | cons x l ih =>
    cases x with
    | honest o =>
      simp only [List.mem_cons, reduceCtorEq, false_or] at hm
      exact ih h hm
    | injected r' ops' =>
      simp only [allRefused, Bool.and_eq_true, List.all_eq_true] at h
      simp only [List.mem_cons, HOut.injected.injEq] at hm
      rcases hm with ⟨-, rfl⟩ | hm
      · intro a r he
        have := h.1 _ he
        simp at this
      · exact ih h.2 hm

/-- A session message nobody sent: Alice's first one with another ciphertext. -/
def forgedInner : Bytes := match smSer { msg1.message.struct with cipherText := some (List.replicate 16 7) } with
  | .ok b => b
  | _ => []

/-- A prekey message nobody sent, with the given identity and base key. -/
def forgedPreKey (identity base : Key32) : Bytes :=
  match pkSer { msg1.struct with identityKey := some (serPub identity), baseKey := some (serPub base), message := some forgedInner } with
  | .ok b => b
  | _ => []

/-- Bob, who knows Alice's key already. -/
def bobKnows : Store := { bobStore with identities := upd bobStore.identities Toy.alice (some aliceEnv.identity.pub) }

/-- The conversation of C03 with made-up packets: forged prekey messages with Alice's and with another identity, known and unknown base keys, forged session messages,
and garbage, to both users. -/
def toyHostile : List HEvent :=
  [.honest (.say .alice [1]), .inject .bob (.preKey (forgedPreKey aliceEnv.identity.pub (key 77))), .inject .alice (.signal [1, 2, 3]),
   .honest (.say .alice [2, 2]), .honest (.deliver 1), .inject .bob (.preKey (forgedPreKey (key 66) (key 77))),
   .inject .bob (.preKey (forgedPreKey aliceEnv.identity.pub msg1.baseKey)), .inject .bob (.signal forgedInner), .honest (.say .bob [4]),
   .inject .alice (.signal forgedInner), .inject .alice (.preKey (forgedPreKey (key 66) (key 77))), .honest (.deliver 2),
   .honest (.say .alice [5]), .honest (.deliver 0), .honest (.deliver 3)]

set_option maxRecDepth 100000 in
/-- Non-vacuity of C68: the hypotheses hold of the toy users and this schedule, in which eight forged packets are refused. -/
theorem toy_meeting_hostile : Meeting Toy.C aliceEnv bobEnv Toy.alice Toy.bob emptyStore bobKnows alice1 0 0 2 bundle signedPre oneTime (2 * toyHostile.length) := by
  refine ⟨rfl, rfl, .inl ⟨rfl, rfl⟩, ⟨rfl, rfl⟩, rfl, rfl, rfl, rfl, rfl, rfl, rfl, ⟨9, rfl, by decide, rfl⟩, rfl, rfl, rfl, .inr (by simp [bobKnows, upd]), ?_, ?_, ⟨?_, ?_⟩, ⟨?_, ?_⟩, ?_⟩
  · intro ids h
    show (match ids Toy.alice with | none => true | some k' => k' == aliceEnv.identity.pub) = true
    rcases h with h | h <;> rw [h]
    simp
  · refine Prod.ext (by decide +kernel) (Prod.ext rfl (by decide +kernel))
  · intro i _ _ h; simp [aliceEnv, env] at h
  · intro i j h1 h2 h3
    have : ∀ j < 32, ∀ i < j, aliceEnv.drawn i ≠ aliceEnv.drawn j := by decide +kernel
    exact this j (by simpa [toyHostile] using h3) i h2
  · intro i _ _ h; simp [bobEnv, env] at h
  · intro i j h1 h2 h3
    have : ∀ j < 30, ∀ i < j, bobEnv.drawn i ≠ bobEnv.drawn j := by decide +kernel
    exact this j (by simpa [toyHostile] using h3) i h2
  · intro i h1 h2
    have : ∀ i < 30, bobEnv.drawn i ≠ some signedPre.pub := by decide +kernel
    exact this i (by simpa [toyHostile] using h2)

set_option maxRecDepth 100000 in
theorem toy_refused : allRefused (World.hrun (sides aliceEnv bobEnv) (sides Toy.alice Toy.bob) ⟨sides ⟨alice1, 2⟩ ⟨bobKnows, 0⟩, []⟩ toyHostile) = true := by
  decide +kernel

set_option maxRecDepth 100000 in
example : All2 Matches [.said, .said, .got [2, 2], .said, .got [4], .said, .got [1], .got [5]]
    (honestOuts (World.hrun (sides aliceEnv bobEnv) (sides Toy.alice Toy.bob) ⟨sides ⟨alice1, 2⟩ ⟨bobKnows, 0⟩, []⟩ toyHostile)) := by
  refine C68_hostile_network Toy.dhLaw Toy.aesLaw toyHostile toy_meeting_hostile (by decide) ?_ ?_ (fun r ops hm => allRefused_spec toy_refused hm) _
    (by decide +kernel)
  · intro s t hm
    simp only [toyHostile, List.mem_cons, HEvent.honest.injEq, Event.say.injEq, reduceCtorEq, false_or, or_false, List.not_mem_nil] at hm
    rcases hm with ⟨-, rfl⟩ | ⟨-, rfl⟩ | ⟨-, rfl⟩ | ⟨-, rfl⟩ <;> decide
  · intro _ ids k h ht
    rcases h with ⟨h, -⟩ | h
    · simp [bobKnows, upd] at h
    · have ht : (match ids Toy.alice with | none => true | some k' => k' == k) = true := ht
      rw [h] at ht
      simpa using (beq_iff_eq.1 ht).symm

set_option maxRecDepth 100000 in
/-- **C68, false without `pinned`.** On first use Bob has no key for Alice and trusts any.  One forged prekey message, made of public data only, is refused — and from then on Alice's
genuine message is refused too, because the forger's identity has been saved as hers. -/
theorem C68_first_use_false : ∃ (A B : Env) (addrA addrB : Addr) (w : World) (forged : Packet) (text : Bytes),
    honestOuts (World.hrun (sides A B) (sides addrA addrB) w [.honest (.say .alice text), .honest (.deliver 0)]) = [.said (.ok ()), .heard (.ok text)] ∧
    allRefused (World.hrun (sides A B) (sides addrA addrB) w [.honest (.say .alice text), .inject .bob forged, .honest (.deliver 0)]) = true ∧
    honestOuts (World.hrun (sides A B) (sides addrA addrB) w [.honest (.say .alice text), .inject .bob forged, .honest (.deliver 0)]) =
      [.said (.ok ()), .heard (.err .untrustedIdentity)] :=
  ⟨aliceEnv, bobEnv, Toy.alice, Toy.bob, ⟨sides ⟨alice1, 2⟩ ⟨bobStore, 0⟩, []⟩, .preKey (forgedPreKey (key 66) (key 77)), [1],
    by decide +kernel, by decide +kernel, by decide +kernel⟩
end

end Verif
