import Verif.Props.Renewal
/-
C72, continued: after both users set up a session at once, one of the two sessions prevails as soon as a user who has heard the other answers.
-/
set_option linter.unusedSimpArgs false
namespace Verif
open Talk

/-- Decrypting keeps a state complete, whether it succeeds or not. -/
theorem decryptWithState_initialised' (E : Env) (d : Option Key32) {s : SState} (m : SignalMsg) (hi : s.Initialised) :
    (decryptWithState E d s m).2.1.Initialised := by
  have hk := decryptWithState_kept E d s m
  have hs := (decryptWithState_keeps E d s m hi.2.2.2.2).1
  have hr : (decryptWithState E d s m).2.1.rootKey ≠ none := by
    rcases decryptWithState_cases E d s m with ⟨res, d', he, -, -⟩ | ⟨s1, c, d', hc, h1, -, hs1, he⟩
    · rw [he]; exact hi.2.2.1
    · have hv : s1.rootKey ≠ none := by
        rcases hs1 with ⟨rfl, -⟩ | ⟨-, -, root, sc, p, r, -, -, -, -, rfl⟩
        · exact hi.2.2.1
        · simp [ratchetStep, SState.setSenderChain, SState.addReceiverChain]
      rw [he]
      split
      · generalize Res.isOk _ = b; cases b <;> exact hv
      · exact hv
      · exact hv
  exact ⟨by rw [hk.loc]; exact hi.1, by rw [hk.remote]; exact hi.2.1, hr, by rw [hk.base]; exact hi.2.2.2.1, hs⟩

theorem ofStates_prev_cons (s0 s1 : SState) (ps : List SState) : ∃ rest, (Rec.ofStates s0 (s1 :: ps)).prev = 1 :: rest := by
  refine ⟨(List.range ps.length).map (· + 1 + 1), ?_⟩
  simp only [Rec.ofStates, List.length_cons]
  rw [List.range_succ_eq_map]
  simp only [List.map_cons, List.map_map, List.cons.injEq]
  exact ⟨trivial, rfl⟩

/-- Decrypting with the newest archived state after the current one failed: that state becomes current. -/
theorem Ready.decrypt_archived {E : Env} {st : Store} {a : Addr} {s0 s1 s0' s1' : SState} {ps : List SState} {m : SignalMsg} {x : Bytes × MsgKeys} {e : Err}
    {d0 d1 : Bool} {pos : Nat} (h : Ready st a s0 (s1 :: ps)) (hv : s1.version = currentVersion)
    (h0 : decryptWithState E (E.rng pos) s0 m = (.err e, s0', d0)) (h1 : decryptWithState E (E.rng (bump pos d0)) s1 m = (.ok x, s1', d1)) :
    ∃ st' ps', st.decrypt E pos a m = (.ok x, st', bump (bump pos d0) d1) ∧ Ready st' a s1' ps' ∧ st'.preKeys = st.preKeys ∧
      st'.signedPreKeys = st.signedPreKeys ∧ st'.identities = upd st.identities a s1'.remoteIdentity := by
  have hi0 := decryptWithState_initialised' E (E.rng pos) m h.init
  rw [h0] at hi0
  have hi1 := decryptWithState_initialised h1 (h.inits s1 (List.mem_cons_self ..))
  have hk := decryptWithState_kept E (E.rng (bump pos d0)) s1 m
  rw [h1] at hk
  obtain ⟨rest, hprev⟩ := ofStates_prev_cons s0 s1 ps
  have hheap : ∀ b ∈ (Rec.ofStates s0 (s1 :: ps)).prev, ((Rec.ofStates s0 (s1 :: ps)).heap b).Initialised := by
    intro b hb
    have : (Rec.ofStates s0 (s1 :: ps)).heap b ∈ (Rec.ofStates s0 (s1 :: ps)).prevStates := List.mem_map_of_mem hb
    rw [ofStates_prev] at this
    exact h.inits _ this
  have hh0 : (Rec.ofStates s0 (s1 :: ps)).heap 0 = s0 := rfl
  have hh1 : (Rec.ofStates s0 (s1 :: ps)).heap 1 = s1 := rfl
  have hcur : (Rec.ofStates s0 (s1 :: ps)).cur = 0 := rfl
  have hload := h.load
  generalize hr : Rec.ofStates s0 (s1 :: ps) = r at *
  obtain ⟨r3, hdr, hst, hins⟩ : ∃ r3, decryptWithRecord E pos r m = (.ok x, r3, bump (bump pos d0) d1) ∧ r3.state = s1' ∧
      ∀ y ∈ r3.prevStates, y.Initialised := by
    refine ⟨Rec.promote { (r.set 0 s0').set 1 s1' with prev := (1 :: rest).eraseIdx 0 ++ (1 :: rest).drop ((1 :: rest).length - 1) } 1, ?_, ?_, ?_⟩
    · have e1 : ((r.set 0 s0').heap 1) = s1 := by rw [Rec.set_heap, if_neg (by decide), hh1]
      have e2 : ((r.set 0 s0').set 1 s1').prev = 1 :: rest := hprev
      unfold decryptWithRecord
      rw [hcur, hh0, h0]
      simp only
      rw [hprev]
      unfold tryPrevious
      rw [e1, h1]
      simp only [e2]
    · show ((r.set 0 s0').set 1 s1').heap 1 = s1'
      rw [Rec.set_heap, if_pos rfl]
    · intro y hy
      simp only [Rec.prevStates, List.mem_map] at hy
      obtain ⟨b, hb, rfl⟩ := hy
      have hb' : b ∈ 0 :: (1 :: rest) := by
        have hsub : b ∈ 0 :: ((1 :: rest).eraseIdx 0 ++ (1 :: rest).drop ((1 :: rest).length - 1)) := by
          simp only [Rec.promote, Rec.set, hcur] at hb
          split at hb
          · exact List.dropLast_subset _ hb
          · exact hb
        rcases List.mem_cons.1 hsub with rfl | hsub
        · exact List.mem_cons_self ..
        · rcases List.mem_append.1 hsub with hsub | hsub
          · exact List.mem_cons_of_mem _ (List.mem_of_mem_eraseIdx hsub)
          · exact List.mem_cons_of_mem _ (List.mem_of_mem_drop hsub)
      show (((r.set 0 s0').set 1 s1').heap b).Initialised
      rw [Rec.set_heap, Rec.set_heap]
      by_cases hb1 : b = 1
      · rw [if_pos hb1]; exact hi1
      · rw [if_neg hb1]
        by_cases hb0 : b = 0
        · rw [if_pos hb0]; exact hi0
        · rw [if_neg hb0]
          refine hheap b ?_
          rw [hprev]
          exact (List.mem_cons.1 hb').resolve_left hb0
  obtain ⟨str, hstr⟩ := toStruct_of_init (r := r3) (by
    rw [hst]; intro y hy
    rcases List.mem_cons.1 hy with rfl | hy
    · exact hi1
    · exact hins y hy)
  have htr : st.decryptTrace E pos a m = (.ok x, bump (bump pos d0) d1, [.saveIdentity a s1'.remoteIdentity, .storeSession a r3]) := by
    unfold Store.decryptTrace
    cases hs : st.sessions a with
    | none => have := h.isSome; rw [hs] at this; simp at this
    | some y => simp only [hload, decryptRec, hdr, hst]
  refine ⟨{ st with identities := upd st.identities a s1'.remoteIdentity, sessions := upd st.sessions a (some str) }, r3.prevStates, ?_, ?_, rfl, rfl, rfl⟩
  · simp only [Store.decrypt, htr, finish, Store.applyAll, Store.apply, hstr]
  · refine ⟨?_, hi1, hins, by rw [hk.version]; exact hv⟩
    rw [Store.load_stored (r := r3) hstr (by simp [upd]), hst]

/-- The record after archiving: the former current state is the newest archived one. -/
theorem archive_head (s : SState) (ps : List SState) (s' : SState) :
    ∃ ps', ((Rec.ofStates s ps).archiveCurrentState.set (Rec.ofStates s ps).archiveCurrentState.cur s').prevStates = s :: ps' := by
  have hlt := ofStates_lt s ps
  have hst := ofStates_state s ps
  generalize Rec.ofStates s ps = r at *
  have hc : ((r.archiveCurrentState.set r.archiveCurrentState.cur s').heap r.cur) = s := by
    have := hlt r.cur (List.mem_cons_self ..)
    simp only [Rec.archiveCurrentState, Rec.promote, Rec.set]
    rw [if_neg (by omega), if_neg (by omega)]
    exact hst
  have hp : ∃ l, (r.archiveCurrentState.set r.archiveCurrentState.cur s').prev = r.cur :: l := by
    simp only [Rec.archiveCurrentState, Rec.promote, Rec.set]
    split
    · rename_i hl
      cases hpv : r.prev with
      | nil => rw [hpv] at hl; simp [archivedStatesMaxLength] at hl
      | cons b l => exact ⟨(b :: l).dropLast, rfl⟩
    · exact ⟨_, rfl⟩
  obtain ⟨l, hl⟩ := hp
  unfold Rec.prevStates
  rw [hl, List.map_cons, hc]
  exact ⟨_, rfl⟩

theorem process_archives {X : Setup} (hX : X.Ok) {ids : Addr → Option Key32} {pk spk : UInt32 → Option IdKeyPair} {pm : PreKeyMsg} {s : SState} {ps : List SState}
    (ha : AnnouncedBy X pm) (hpk : pk X.otId = some X.ot) (hspk : spk X.spkId = some X.spk)
    (ht : (X.env .bob).trusted ids (X.addr .alice) (X.ident .alice) = true)
    (hnew : ∀ y ∈ (Rec.ofStates s ps).state :: (Rec.ofStates s ps).prevStates, y.senderBaseKey ≠ some X.base) {res : Res (Option OptU32)} {rr : Rec} {effs : List Effect}
    (h : process (X.env .bob) ids pk spk (X.addr .alice) (Rec.ofStates s ps) pm = (res, rr, effs)) : ∃ ps', rr.prevStates = s :: ps' := by
  have hk : ¬ (Rec.ofStates s ps).hasSessionState pm.struct.version (serPub pm.baseKey) = true := by
    rw [hasSessionState_iff]
    rintro ⟨y, hy, -, hb⟩
    rw [ha.base] at hb
    exact hnew y hy hb
  unfold process processV3 at h
  rw [ha.identity, if_neg (by simp [ht]), if_neg hk] at h
  simp only [ha.signedPreKeyId, hspk, ha.preKeyId, OptU32.new, hpk, ha.base, hX.hC, hX.recv] at h
  have hf : (Rec.ofStates s ps).fresh = false := rfl
  rw [if_neg hX.otId] at h
  simp only [hf, Bool.false_eq_true, if_false, Prod.mk.injEq] at h
  obtain ⟨-, rfl, -⟩ := h
  exact archive_head s ps _

/-- Bob hears of the session for the first time; what he had before is archived. -/
theorem Inv.hear_first {X : Setup} (hX : X.Ok) {w : World} {c : Conv} {es : Nat → Key32} {left : Nat} (h : Inv X w c es (left + 1))
    {p : Packet} {n : Note} (hp : PacketFor X es c (n.sender, p) n) (hsd : n.sender = .alice) (hturn : n.turn = 1) (hbt : (c.party .bob).turn = 0) {p' : Party}
    (hacc : (c.party .bob).receive n.turn n.number = .accepted p') {s : SState} {ps : List SState}
    (hl : (w.node .bob).st.load (X.addr .alice) = .ok (Rec.ofStates s ps)) :
    ∃ n' s' ps', (w.node .bob).hear (X.env .bob) (X.addr .alice) p = (.ok n.text, n') ∧ (w.node .bob).pos ≤ n'.pos ∧ n'.pos ≤ (w.node .bob).pos + 1 ∧
      Ready n'.st (X.addr .alice) s' (s :: ps') := by
  obtain ⟨sender, k, i, text⟩ := n
  simp only at hsd hturn hacc ⊢
  subst hsd
  obtain ⟨-, hpar, hsent, hk0, hop⟩ := hp
  simp only at hpar hsent hk0 hop ⊢
  obtain ⟨st, hh, hb⟩ := h.party .bob
  rcases hop with ⟨b, m, rfl, hk1, -⟩ | ⟨-, b, pm, rfl, hparse, hon, hann⟩
  · exact absurd hturn hk1
  have htrust := hX.trust _ (h.ident.imp_left And.right)
  obtain ⟨r, hr, hrec⟩ := h.receive hX .bob hh hon hpar hsent
  rw [hacc] at hrec
  simp only at hrec
  obtain ⟨mk, st', d, es', hd, hh', hpend, hbase, hcase⟩ := hrec
  rcases hb with ⟨-, -, -, -, -, hb⟩ | ⟨-, -, ⟨r0, hl0, hr0, hn0⟩, -, hpk, rfl⟩
  · exact absurd hbt hb
  rw [hl] at hl0
  cases hl0
  obtain ⟨rr, q1, q2, q3, q4, -⟩ := process_first hX hann hpk h.spk htrust hr0 hn0
  obtain ⟨ps', hps'⟩ := process_archives hX hann hpk h.spk htrust hn0 q1
  obtain ⟨n1, hdd, hr', -⟩ := Store.decryptPreKey_current_ok hl q1 q3 q4 (by rw [q2]; exact hd) (by rw [q2]; exact hh.init) (by rw [q2]; exact hh.version)
  rw [hps'] at hr'
  refine ⟨⟨n1, bump (w.node .bob).pos d⟩, st', ps', ?_, ?_, ?_, hr'⟩
  · simp only [Node.hear, hX.hS, hX.hP, hparse, hdd, Res.map]
  · simp only [bump]; split <;> omega
  · simp only [bump]; split <;> omega

/-- The users and the wire after a list of events. -/
def World.after (env : Side → Env) (addr : Side → Addr) (w : World) (evs : List Event) : World :=
  evs.foldl (fun w e => (w.step env addr e).2) w

theorem World.run_append (env : Side → Env) (addr : Side → Addr) (l l' : List Event) : ∀ w : World,
    w.run env addr (l ++ l') = w.run env addr l ++ (w.after env addr l).run env addr l' := by
  induction l with
  | nil => intro w; rfl
  | cons e l ih => intro w; simp only [List.cons_append, World.run, World.after, List.foldl_cons]; rw [ih]; rfl

/-- A user who has lost all sessions with `a` but the current one. -/
def Node.onlyCurrent (n : Node) (a : Addr) : Node :=
  { n with st := { n.st with sessions := upd n.st.sessions a ((n.st.sessions a).map fun s => { s with previous := [] }) } }

/-- Message `i` of the conversation on Alice's session is message `i` on the wire, but for Bob's first message, number 1 on the wire, which belongs to his own session. -/
def later : Event → Event
  | .say s t => .say s t
  | .deliver 0 => .deliver 0
  | .deliver (i + 1) => .deliver (i + 2)

theorem run_later (env : Side → Env) (addr : Side → Addr) (x y : Side × Packet) (evs : List Event) : ∀ (w : Side → Node) (rest : List (Side × Packet)),
    World.run env addr ⟨w, x :: y :: rest⟩ (evs.map later) = World.run env addr ⟨w, x :: rest⟩ evs := by
  induction evs with
  | nil => intro w rest; rfl
  | cons e evs ih =>
    intro w rest
    simp only [List.map_cons, World.run]
    cases e with
    | say s t =>
      simp only [later, World.step]
      cases hs : (w s).say (env s) (addr s.peer) t with
      | mk res n =>
        cases res with
        | ok p => simp only [List.cons_append]; rw [ih]
        | err e => simp only; rw [ih]
        | panic => simp only; rw [ih]
    | deliver i =>
      cases i with
      | zero => simp only [later, World.step, List.getElem?_cons_zero]; rw [ih]
      | succ i =>
        simp only [later, World.step, List.getElem?_cons_succ]
        cases hr : rest[i]? with
        | none => simp only; rw [ih]
        | some z => simp only; rw [ih]

/-- A refusal by a user who has only the current session is a refusal by the current session. -/
theorem Ready.current_refuses {E : Env} {n : Node} {a : Addr} {s0 : SState} {ps : List SState} {b : Bytes} {m : SignalMsg} {e : Err} (h : Ready n.st a s0 ps)
    (hm : newSignalMessageFromBytes E.S b = .ok m) (hh : ((n.onlyCurrent a).hear E a (.signal b)).1 = .err e) :
    ∃ e' s0' d, decryptWithState E (E.rng n.pos) s0 m = (.err e', s0', d) := by
  have hload : (n.onlyCurrent a).st.load a = .ok (Rec.ofStates s0 []) := by
    have hl := h.load
    unfold Store.load at hl
    cases hs : n.st.sessions a with
    | none => have := h.isSome; rw [hs] at this; simp at this
    | some str =>
      simp only [hs] at hl
      unfold Rec.ofStruct at hl
      cases h1 : seqRes (str.previous.map SState.ofStruct) with
      | err e => simp [h1] at hl
      | panic => simp [h1] at hl
      | ok ps' =>
        simp only [h1, Res.bind_ok] at hl
        cases h2 : SState.ofStruct str.state with
        | err e => simp [h2] at hl
        | panic => simp [h2] at hl
        | ok s =>
          simp only [h2, Res.map_ok, Res.ok.injEq] at hl
          have hst : s = s0 := by rw [← ofStates_state s ps', hl, ofStates_state]
          subst hst
          simp only [Node.onlyCurrent, Store.load, upd, if_true, hs, Option.map_some, Rec.ofStruct, List.map_nil, seqRes, Res.bind_ok, h2, Res.map_ok]
  have hr : Ready (n.onlyCurrent a).st a s0 [] := ⟨hload, h.init, by simp, h.version⟩
  cases hd : decryptWithState E (E.rng n.pos) s0 m with
  | mk res y =>
    obtain ⟨s0', d⟩ := y
    cases res with
    | err e' => exact ⟨e', s0', d, rfl⟩
    | ok x =>
      obtain ⟨st', h1, -⟩ := hr.decrypt_ok hd
      have h1 : (n.onlyCurrent a).st.decrypt E (n.onlyCurrent a).pos a m = (.ok x, st', bump n.pos d) := h1
      simp only [Node.hear, hm, h1, Res.map] at hh
      simp at hh
    | panic =>
      have hdr : decryptWithRecord E n.pos (Rec.ofStates s0 []) m = (.panic, (Rec.ofStates s0 []).set (Rec.ofStates s0 []).cur s0', bump n.pos d) := by
        rw [decryptWithRecord_single rfl, ofStates_state, hd]
      have htr : (n.onlyCurrent a).st.decryptTrace E (n.onlyCurrent a).pos a m = (.panic, bump n.pos d, []) := by
        unfold Store.decryptTrace
        cases hs : (n.onlyCurrent a).st.sessions a with
        | none => have := hr.isSome; rw [hs] at this; simp at this
        | some y =>
          show (match (n.onlyCurrent a).st.load a with | .ok r => _ | .err e => _ | .panic => _) = _
          simp only [hload, decryptRec]
          show _ = _
          have : (n.onlyCurrent a).pos = n.pos := rfl
          rw [this, hdr]
      simp only [Node.hear, hm, Store.decrypt, htr, finish, Store.applyAll, Res.map] at hh
      simp at hh

/-- The first two messages cross, both are heard, then Bob answers on the session Alice set up. -/
def crossing (ta tb t : Bytes) : List Event := [.say .alice ta, .say .bob tb, .deliver 0, .deliver 1, .say .bob t]

/-- **C72 (recovery).** Alice has processed a bundle of Bob's and Bob one of Alice's; each has sent a first message (`ta`, `tb`) and heard the other's, and Bob answers `t`, on the
session Alice set up, which has become his current one; Alice's current session is then the one Bob set up.  Assume that session does not by accident accept Bob's answer
(`hmiss`: were it the only session Alice has, she would refuse it).  Then she hears the answer, with the session she set up, and from then on every conversation goes as C03's
specification has it for that session alone, as if Bob had set up none: in all schedules without rejections every message is decrypted to the text that was sent. -/
theorem C72_recovers_partial {C : Crypto} (hdh : C.DhLaw) (haes : C.AesLaw) {A B : Env} {addrA addrB : Addr} {stA stA' stB stB' : Store}
    {posA posA' posB posB' : Nat} {bA bB : Bundle} {spkA otA spkB otB : IdKeyPair} (evs : List Event)
    (hA : Renewal C A B addrA addrB stA stB' stA' posA posB' posA' bB spkB otB (evs.length + 6))
    (hB : Renewal C B A addrB addrA stB stA' stB' posB posA' posB' bA spkA otA 2) (hn : evs.length + 6 < 2 ^ 32)
    (ta tb t : Bytes) (hta : ta.length < 2 ^ 63) (htb : tb.length < 2 ^ 63) (ht : t.length < 2 ^ 63)
    (hevs : ∀ s u, Event.say s u ∈ evs → u.length < 2 ^ 63)
    (hmiss : ∀ p, (World.after (sides A B) (sides addrA addrB) ⟨sides ⟨stA', posA'⟩ ⟨stB', posB'⟩, []⟩ (crossing ta tb t)).wire[2]? = some (.bob, p) →
      ∃ e, ((((World.after (sides A B) (sides addrA addrB) ⟨sides ⟨stA', posA'⟩ ⟨stB', posB'⟩, []⟩ (crossing ta tb t)).node .alice).onlyCurrent addrB).hear A addrB p).1 = .err e)
    (outs : List Outcome) (ho : Conv.start.run ([.say .alice ta, .deliver 0, .say .bob t, .deliver 1] ++ evs) = some ([.said, .got ta, .said, .got t] ++ outs))
    (hrej : Outcome.rejected ∉ outs) :
    All2 Matches ([.said, .said, .got ta, .got tb, .said, .got t] ++ outs)
      (World.run (sides A B) (sides addrA addrB) ⟨sides ⟨stA', posA'⟩ ⟨stB', posB'⟩, []⟩ (crossing ta tb t ++ [.deliver 2] ++ evs.map later)) := by
  -- Alice's session
  obtain ⟨X, es, hX, x1, x2, -, x4, -, hi⟩ := hA.inv hdh haes hn
  have ha : X.addr .alice = addrA := by rw [x2]; rfl
  have hb : X.addr .bob = addrB := by rw [x2]; rfl
  have hea : X.env .alice = A := by rw [x1]; rfl
  have heb : X.env .bob = B := by rw [x1]; rfl
  have hidA : X.ident .alice = A.identity.pub := by simp only [Setup.ident, x1, sides]
  have hidB : X.ident .bob = B.identity.pub := by simp only [Setup.ident, x1, sides]
  obtain ⟨p, nA, hs1, hi1⟩ := hi.say hX .alice hta (by simp [Conv.start, Conv.party])
  obtain ⟨st1, -, hb1⟩ := hi1.party .alice
  obtain ⟨ps1, hr1, -⟩ := hb1.ready (by rw [said_turn]; simp [Conv.start, Conv.party])
  obtain ⟨sA, hhA, hbA⟩ := hi.party .alice
  obtain ⟨psA, hrA, -⟩ := hbA.ready (by simp [Conv.start, Conv.party])
  -- Bob's session
  obtain ⟨Y, fs, hY, y1, y2, -, y4, -, hj⟩ := hB.inv hdh haes (by decide)
  have ga : Y.addr .alice = addrB := by rw [y2]; rfl
  have gb : Y.addr .bob = addrA := by rw [y2]; rfl
  have gea : Y.env .alice = B := by rw [y1]; rfl
  have geb : Y.env .bob = A := by rw [y1]; rfl
  have gidA : Y.ident .alice = B.identity.pub := by simp only [Setup.ident, y1, sides]
  have gidB : Y.ident .bob = A.identity.pub := by simp only [Setup.ident, y1, sides]
  obtain ⟨q, nB, hs2, hj1⟩ := hj.say hY .alice htb (by simp [Conv.start, Conv.party])
  obtain ⟨sB, hhB, hbB⟩ := hj.party .alice
  obtain ⟨psB, hrB, -⟩ := hbB.ready (by simp [Conv.start, Conv.party])
  simp only [Side.peer, hea, hb, upd, if_true, sides] at hs1 hr1 hrA
  simp only [Side.peer, gea, gb, upd, if_true, sides] at hs2 hrB
  obtain ⟨ca, hea', hpa⟩ := Node.say_ok hs1
  obtain ⟨cb, heb', hpb⟩ := Node.say_ok hs2
  simp only at hea' heb' hpa hpb
  have kept : ∀ {E : Env} {st st' : Store} {a : Addr} {t : Bytes} {cm : CipherMsg} {s : SState} {ps : List SState} {k : Key32}, Std E.S E.P → t.length < 2 ^ 63 →
      Ready st a s ps → s.remoteIdentity = some k → st.encrypt E a t = (.ok cm, st') →
      st'.preKeys = st.preKeys ∧ st'.signedPreKeys = st.signedPreKeys ∧ st'.identities a = some k ∧ (∀ base, Unmet st a base → Unmet st' a base) := by
    intro E st st' a t cm s ps k hS ht hr hk he
    obtain ⟨r, s', hl, hes, -, -, h5, h6, h7⟩ := Store.encrypt_ok he
    refine ⟨h5, h6, ?_, fun base hu => hu.encrypt hS.sm hr ht he⟩
    obtain ⟨cm', h8, -, -⟩ := hr.step hS.sm t ht
    rw [hr.load] at hl
    cases hl
    rw [ofStates_state, h8] at hes
    simp only [Prod.mk.injEq] at hes
    rw [h7, ← hes.2]
    simp [upd, SState.advance, hk]
  obtain ⟨a1, a2, a3, a4⟩ := kept (k := B.identity.pub) hA.serA hta hrA (by rw [hhA.rem]; exact congrArg some hidB) hea'
  obtain ⟨b1, b2, b3, b4⟩ := kept (k := A.identity.pub) hB.serA htb hrB (by rw [hhB.rem]; exact congrArg some gidB) heb'
  -- Bob says tb on his own session, then hears ta
  have hi2 := hi1.bystander (n' := nB) (by simp [Conv.start, Conv.said, Conv.set, Conv.party])
    (by simpa [upd, sides] using hpb) (by simpa [upd, sides] using b1) (by simpa [upd, sides] using b2) (by rw [ha, hidA]; exact b3)
    (by rw [ha]; simpa [upd, sides] using b4 X.base) (by rw [x4]; exact fun z => processBundle_isSome hB.processed z.2)
  obtain ⟨z, hz, hpkt⟩ := all2_get hi2.wire (i := 0) (b := ⟨.alice, 1, 0, ta⟩) (by simp [Conv.start, Conv.said, Conv.set, Conv.party])
  simp only [List.nil_append, List.getElem?_cons_zero, Option.some.injEq] at hz
  subst hz
  have hd := hi2.deliver hX (p := p) (n := ⟨.alice, 1, 0, ta⟩) hpkt
  have hrcv : (Conv.party (Conv.said Conv.start .alice ta) .bob).receive 1 0 =
      .accepted ⟨2, 0, [(1, ((Window.accept Talk.limits Window.empty 0).map (·.2)).getD Window.empty)]⟩ := rfl
  simp only [Side.peer] at hd
  rw [hrcv] at hd
  obtain ⟨nB2, es2, hd, hi3⟩ := hd
  simp only [heb, ha, upd, if_true] at hd
  -- Alice hears tb
  have hj2 := hj1.bystander (n' := nA) (by simp [Conv.start, Conv.said, Conv.set, Conv.party])
    (by simpa [upd, sides] using hpa) (by simpa [upd, sides] using a1) (by simpa [upd, sides] using a2) (by rw [ga, gidA]; exact a3)
    (by rw [ga]; simpa [upd, sides] using a4 Y.base) (by rw [y4]; exact fun z => processBundle_isSome hA.processed z.2)
  obtain ⟨z, hz, hpktq⟩ := all2_get hj2.wire (i := 0) (b := ⟨.alice, 1, 0, tb⟩) (by simp [Conv.start, Conv.said, Conv.set, Conv.party])
  simp only [List.nil_append, List.getElem?_cons_zero, Option.some.injEq] at hz
  subst hz
  obtain ⟨nA2, sβ, psβ, hq, hq1, hq2, hq3⟩ := hj2.hear_first hY (p := q) (n := ⟨.alice, 1, 0, tb⟩) hpktq rfl rfl
    (by simp [Conv.start, Conv.said, Conv.set, Conv.party]) (p' := ⟨2, 0, [(1, ((Window.accept Talk.limits Window.empty 0).map (·.2)).getD Window.empty)]⟩) rfl
    (s := st1) (ps := ps1) (by simp only [upd, if_true, ga]; exact hr1.load)
  simp only [geb, ga, upd, if_true] at hq hq1 hq2 hq3
  -- Bob answers
  obtain ⟨p2, nB3, hs3, hi4⟩ := hi3.say hX .bob ht (by simp)
  simp only [Side.peer, heb, ha, upd, if_true] at hs3
  -- the specification
  simp only [List.cons_append, List.nil_append, Conv.run] at ho
  have e1 : Conv.start.step (.say .alice ta) = some (.said, Conv.start.said .alice ta) := rfl
  have e2 : (Conv.start.said .alice ta).step (.deliver 0) = some (.got ta, (Conv.start.said .alice ta).set .bob
      ⟨2, 0, [(1, ((Window.accept Talk.limits Window.empty 0).map (·.2)).getD Window.empty)]⟩) := rfl
  simp only [e1, e2] at ho
  generalize hc : (Conv.start.said .alice ta).set .bob ⟨2, 0, [(1, ((Window.accept Talk.limits Window.empty 0).map (·.2)).getD Window.empty)]⟩ = c3 at *
  have e3 : c3.step (.say .bob t) = some (.said, c3.said .bob t) := by subst hc; rfl
  have hn4 : (c3.said .bob t).notes[1]? = some ⟨.bob, 2, 0, t⟩ := by subst hc; rfl
  have hrcv4 : ∃ p4, ((c3.said .bob t).party .alice).receive 2 0 = .accepted p4 := by subst hc; exact ⟨_, rfl⟩
  obtain ⟨p4, hrcv4⟩ := hrcv4
  have e4 : (c3.said .bob t).step (.deliver 1) = some (.got t, (c3.said .bob t).set .alice p4) := by
    simp only [Conv.step, hn4, Side.peer, hrcv4]
  simp only [e3, e4, Option.map_map, Option.map_eq_some_iff] at ho
  obtain ⟨outs', ho, hou⟩ := ho
  simp only [Function.comp, List.cons.injEq, true_and] at hou
  subst hou
  have hturn1 : ((c3.said .bob t).party .alice).turn = 1 := by subst hc; rfl
  have hturn4 : ((c3.said .bob t).party .alice).turn ≠ 0 := by omega
  clear e1 e2 e3 e4
  -- Alice hears the answer
  obtain ⟨z, hz, hpkt4⟩ := all2_get hi4.wire hn4
  simp only [List.nil_append, List.cons_append, List.getElem?_cons_succ, List.getElem?_cons_zero, Option.some.injEq] at hz
  subst hz
  obtain ⟨-, hpar4, hsent4, -, hop4⟩ := hpkt4
  simp only [Side.peer] at hpar4 hsent4 hop4
  obtain ⟨bs, m, rfl, -, hparse, hon⟩ : ∃ bs m, p2 = .signal bs ∧ (2 : Nat) ≠ 1 ∧ newSignalMessageFromBytes X.S bs = .ok m ∧
      Honest X.C X.S X.k0 es2 (X.ident .bob) (X.ident .alice) 2 0 t m := by
    rcases hop4 with hop4 | ⟨hop4, -⟩
    · exact hop4
    · simp at hop4
  have hAS : A.S = X.S := by rw [← hea]; exact hX.hS .alice
  have hafter : World.after (sides A B) (sides addrA addrB) ⟨sides ⟨stA', posA'⟩ ⟨stB', posB'⟩, []⟩ (crossing ta tb t) =
      ⟨upd (upd (upd (upd (upd (sides ⟨stA', posA'⟩ ⟨stB', posB'⟩) .alice nA) .bob nB) .bob nB2) .alice nA2) .bob nB3, [(.alice, p), (.bob, q), (.bob, .signal bs)]⟩ := by
    simp [World.after, crossing, World.step, sides, Side.peer, upd, hs1, hs2, hd, hq, hs3]
  rw [hafter] at hmiss
  obtain ⟨e, hmiss⟩ := hmiss (.signal bs) rfl
  simp only [upd, reduceCtorEq, if_false, if_true] at hmiss
  obtain ⟨e', sβ', d0, hfail⟩ := hq3.current_refuses (by rw [hAS]; exact hparse) hmiss
  -- in Alice's session's view she has drawn up to two random numbers in between
  have hbump : ∀ k d, k ≤ bump k d ∧ bump k d ≤ k + 1 := by intro k d; unfold bump; split <;> omega
  have hi5 := hi4.untouched (left := evs.length + 1) (m := 2) .alice (n' := ⟨nA.st, bump nA2.pos d0⟩)
    (by have := hbump nA2.pos d0; simp only [upd, reduceCtorEq, if_false, if_true]; omega)
    (by intro s hs; simp only [upd, reduceCtorEq, if_false, if_true] at hs; exact hs) (by simp)
  obtain ⟨st5, hh5, hb5⟩ := hi5.party .alice
  obtain ⟨ps5, hr5, -⟩ := hb5.ready hturn4
  simp only [Side.peer, hb, upd, if_true] at hr5
  have hst5 : st5 = st1 := by
    have := hr5.load
    rw [hr1.load] at this
    simp only [Res.ok.injEq] at this
    rw [← ofStates_state st5 ps5, ← this, ofStates_state]
  subst hst5
  obtain ⟨r, hr, hrec⟩ := hi5.receive hX .alice hh5 (k := 2) (i := 0) hon hpar4 hsent4
  rw [hrcv4] at hrec
  simp only [hea, upd, if_true] at hrec hr
  obtain ⟨mk, st6, d1, es6, hd6, hh6, hpend6, hbase6, hcase6⟩ := hrec
  obtain ⟨stA6, ps6, hdec, hr6, -⟩ := hq3.decrypt_archived hh5.version hfail hd6
  have hkept := decryptWithState_kept A (A.rng (bump nA2.pos d0)) st5 m
  rw [hd6] at hkept
  have hi6 := hi5.accepted hX .alice (k := 2) (by simp only [upd, if_true, hea]; exact hr) hsent4 hh6 hcase6 (n' := ⟨stA6, bump (bump nA2.pos d0) d1⟩)
    (by simp [upd]) (by
      refine .inl ⟨ps6, by simp only [Side.peer, hb]; exact hr6, ?_, ?_⟩
      · intro hcl; rw [x4] at hcl; exact absurd hcl.2 (processBundle_isSome hB.processed)
      · simp only
        have hne : p4.turn ≠ 1 := by rcases hcase6 with ⟨-, -, -, -, z⟩ | ⟨-, -, -, z, -⟩ <;> omega
        rw [if_neg hne]
        refine ⟨hpend6, ?_⟩
        rw [hkept.lreg]
        rcases hb5 with ⟨-, -, -, z⟩ | ⟨z, -⟩
        · exact z.2
        · cases z) (by simp)
  have hfin := hi6.run hX evs hevs outs' ho (.inr hrej)
  rw [x1, x2] at hfin
  have hrun : World.run (sides A B) (sides addrA addrB) ⟨sides ⟨stA', posA'⟩ ⟨stB', posB'⟩, []⟩ (crossing ta tb t ++ [.deliver 2] ++ evs.map later) =
      [.said (.ok ()), .said (.ok ()), .heard (.ok ta), .heard (.ok tb), .said (.ok ()), .heard (.ok t)] ++
        World.run (sides A B) (sides addrA addrB) ⟨sides ⟨stA6, bump (bump nA2.pos d0) d1⟩ nB3, (.alice, p) :: (.bob, q) :: [(.bob, .signal bs)]⟩ (evs.map later) := by
    have hlast : nA2.hear A addrB (.signal bs) = (.ok t, ⟨stA6, bump (bump nA2.pos d0) d1⟩) := by
      simp only [Node.hear, hAS, hparse, hdec, Res.map]
    rw [List.append_assoc, World.run_append, hafter]
    have h1 : World.run (sides A B) (sides addrA addrB) ⟨sides ⟨stA', posA'⟩ ⟨stB', posB'⟩, []⟩ (crossing ta tb t) =
        [.said (.ok ()), .said (.ok ()), .heard (.ok ta), .heard (.ok tb), .said (.ok ())] := by
      simp [World.run, crossing, World.step, sides, Side.peer, upd, hs1, hs2, hd, hq, hs3]
    have hnode : upd (upd (upd (upd (upd (sides ⟨stA', posA'⟩ ⟨stB', posB'⟩) .alice nA) .bob nB) .bob nB2) .alice nA2) .bob nB3 = sides nA2 nB3 := by
      funext s; cases s <;> simp [upd, sides]
    have hnode2 : upd (sides nA2 nB3) .alice ⟨stA6, bump (bump nA2.pos d0) d1⟩ = sides ⟨stA6, bump (bump nA2.pos d0) d1⟩ nB3 := by
      funext s; cases s <;> simp [upd, sides]
    have hstep : World.step (sides A B) (sides addrA addrB) ⟨sides nA2 nB3, [(.alice, p), (.bob, q), (.bob, .signal bs)]⟩ (.deliver 2) =
        (.heard (.ok t), ⟨sides ⟨stA6, bump (bump nA2.pos d0) d1⟩ nB3, [(.alice, p), (.bob, q), (.bob, .signal bs)]⟩) := by
      rw [← hnode2]
      have hg : [(Side.alice, p), (Side.bob, q), (Side.bob, Packet.signal bs)][2]? = some (.bob, .signal bs) := rfl
      simp only [World.step, hg, Side.peer]
      have e1 : sides nA2 nB3 .alice = nA2 := rfl
      have e2 : sides A B .alice = A := rfl
      have e3 : sides addrA addrB .bob = addrB := rfl
      rw [e1, e2, e3, hlast]
    rw [h1, hnode]
    simp only [World.run, hstep, List.cons_append, List.nil_append]
  rw [hrun, run_later]
  refine .cons trivial (.cons trivial (.cons rfl (.cons rfl (.cons trivial (.cons rfl ?_)))))
  have key : ∀ (w : World) (n : Side → Node) (l : List (Side × Packet)), w.node = n → w.wire = l → All2 Matches outs' (w.run (sides A B) (sides addrA addrB) evs) →
      All2 Matches outs' (World.run (sides A B) (sides addrA addrB) ⟨n, l⟩ evs) := by rintro ⟨n, l⟩ _ _ rfl rfl h; exact h
  exact key _ _ _ (by funext s; cases s <;> simp [upd, sides]) (by simp) hfin

section
open Toy

/-- What follows: answers, reordering, ratchet steps. -/
def afterCrossing : List Event := [.say .alice [5], .say .bob [6], .say .bob [7], .deliver 4, .deliver 2, .deliver 3, .say .bob [8], .say .alice [9], .deliver 6, .deliver 5]

/-- The packet Bob's answer is. -/
def answerPacket (w : World) : Option Packet := match w.wire[2]? with | some (Talk.Side.bob, p) => some p | _ => none

set_option maxRecDepth 100000 in
/-- Non-vacuity of C72's recovery: the toy users of `toy_crossing`. -/
example : All2 Matches ([.said, .said, .got [1], .got [2], .said, .got [3]] ++ [.said, .said, .said, .got [7], .got [5], .got [6], .said, .said, .got [9], .got [8]])
    (World.run (sides aliceEnv bobEnv) (sides Toy.alice Toy.bob) ⟨sides ⟨aliceX, 2⟩ ⟨bobX, 2⟩, []⟩ (crossing [1] [2] [3] ++ [.deliver 2] ++ afterCrossing.map later)) := by
  refine C72_recovers_partial Toy.dhLaw Toy.aesLaw afterCrossing (toy_crossing _ (by decide)).1 (toy_crossing _ (by decide)).2 (by decide) [1] [2] [3] (by decide)
    (by decide) (by decide) ?_ ?_ _ (by decide +kernel) (by decide)
  · intro s u hu
    simp only [afterCrossing, List.mem_cons, List.not_mem_nil, or_false, reduceCtorEq, false_or, Event.say.injEq] at hu
    rcases hu with ⟨-, rfl⟩ | ⟨-, rfl⟩ | ⟨-, rfl⟩ | ⟨-, rfl⟩ | ⟨-, rfl⟩ <;> decide
  · intro p hp
    have hk : (match answerPacket (World.after (sides aliceEnv bobEnv) (sides Toy.alice Toy.bob) ⟨sides ⟨aliceX, 2⟩ ⟨bobX, 2⟩, []⟩ (crossing [1] [2] [3])) with
        | some p => match ((((World.after (sides aliceEnv bobEnv) (sides Toy.alice Toy.bob) ⟨sides ⟨aliceX, 2⟩ ⟨bobX, 2⟩, []⟩
            (crossing [1] [2] [3])).node .alice).onlyCurrent Toy.bob).hear aliceEnv Toy.bob p).1 with
          | .err _ => true
          | _ => false
        | none => false) = true := by decide +kernel
    simp only [answerPacket, hp] at hk
    generalize ((((World.after (sides aliceEnv bobEnv) (sides Toy.alice Toy.bob) ⟨sides ⟨aliceX, 2⟩ ⟨bobX, 2⟩, []⟩
            (crossing [1] [2] [3])).node .alice).onlyCurrent Toy.bob).hear aliceEnv Toy.bob p).1 = o at hk ⊢
    cases o with
    | err e => exact ⟨e, rfl⟩
    | ok x => simp at hk
    | panic => simp at hk
end

end Verif
