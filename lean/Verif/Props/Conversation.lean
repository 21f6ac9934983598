import Verif.Props.Talk
import Verif.Props.Agreement
import Verif.Props.Bounds
/-
C03, continued: the steps of a conversation and the theorem.
-/
set_option linter.unusedSimpArgs false
namespace Verif
open Talk (Side Party Conv Note Event Outcome)

theorem all2_snoc {α β : Type} {R : α → β → Prop} {l : List α} {m : List β} {a : α} {b : β} (h : All2 R l m) (hr : R a b) :
    All2 R (l ++ [a]) (m ++ [b]) := by
  induction h with
  | nil => exact .cons hr .nil
  | cons h1 _ ih => exact .cons h1 ih

theorem all2_get {α β : Type} {R : α → β → Prop} {l : List α} {m : List β} (h : All2 R l m) {i : Nat} {b : β} (hb : m[i]? = some b) :
    ∃ a, l[i]? = some a ∧ R a b := by
  induction h generalizing i with
  | nil => simp at hb
  | cons h1 _ ih =>
    cases i with
    | zero => simp only [List.getElem?_cons_zero, Option.some.injEq] at hb ⊢; subst hb; exact ⟨_, rfl, h1⟩
    | succ i => simp only [List.getElem?_cons_succ] at hb ⊢; exact ih hb

/-- The conversation after a message was said. -/
def Talk.Conv.said (c : Conv) (s : Side) (text : Bytes) : Conv :=
  { (c.set s { c.party s with sent := (c.party s).sent + 1 }) with notes := c.notes ++ [⟨s, (c.party s).turn, (c.party s).sent, text⟩] }

theorem said_party_same (c : Conv) (s : Side) (text : Bytes) : (c.said s text).party s = { c.party s with sent := (c.party s).sent + 1 } := by
  cases s <;> rfl
theorem said_party_peer (c : Conv) (s : Side) (text : Bytes) : (c.said s text).party s.peer = c.party s.peer := by
  cases s <;> rfl
theorem said_turn (c : Conv) (s t : Side) (text : Bytes) : ((c.said s text).party t).turn = (c.party t).turn := by
  cases s <;> cases t <;> rfl
theorem said_sent (c : Conv) (s t : Side) (text : Bytes) : ((c.said s text).party t).sent ≤ (c.party t).sent + 1 := by
  cases s <;> cases t <;> simp [Talk.Conv.said, Talk.Conv.party, Talk.Conv.set]

theorem Backed.ready {X : Setup} {s : Side} {n : Node} {p : Party} {st : SState} (h : Backed X s n p st) (ht : p.turn ≠ 0) :
    ∃ ps, Ready n.st (X.addr s.peer) st ps ∧ (X.clean → ps = []) := by
  rcases h with ⟨ps, h1, h2, -⟩ | ⟨-, h, -⟩
  · exact ⟨ps, h1, h2⟩
  · exact absurd h ht

/-- Saying something. -/
theorem Inv.say {X : Setup} (hX : X.Ok) {w : World} {c : Conv} {es : Nat → Key32} {left : Nat} (h : Inv X w c es (left + 1))
    (s : Side) {text : Bytes} (hlen : text.length < 2 ^ 63) (ht : (c.party s).turn ≠ 0) :
    ∃ p n, (w.node s).say (X.env s) (X.addr s.peer) text = (.ok p, n) ∧
      Inv X ⟨upd w.node s n, w.wire ++ [(s, p)]⟩ (c.said s text) es left := by
  obtain ⟨st, hh, hb⟩ := h.party s
  obtain ⟨ps, hrdy, hclean⟩ := hb.ready ht
  obtain ⟨hr1, hr2, hr3⟩ := h.room s
  have hpp : ∀ pp, st.pendingPreKey = some pp → s = .alice ∧ (c.party s).turn = 1 ∧ pp = ⟨some (OptU32.new X.otId), X.spkId, X.base⟩ ∧
      st.localRegistrationId = (X.env .alice).registrationId := by
    intro pp hpp
    rcases hb with ⟨-, -, -, hb⟩ | ⟨-, hb, -⟩
    · cases s with
      | alice =>
        simp only at hb
        rw [hb.1] at hpp
        split at hpp
        · rename_i h1; cases hpp; exact ⟨rfl, h1, rfl, hb.2⟩
        · simp at hpp
      | bob => simp only at hb; rw [hb.1] at hpp; simp at hpp
    · exact absurd hb ht
  have hnp : st.pendingPreKey = none → s = .alice → (c.party s).turn ≠ 1 := by
    intro hn hs h1
    subst hs
    rcases hb with ⟨-, -, -, hb⟩ | ⟨hb, -⟩
    · simp only at hb; rw [hb.1, if_pos h1] at hn; simp at hn
    · cases hb
  obtain ⟨cm, h1, h2, h3, h4⟩ := hh.encrypt hX.aes (hX.hC s) (by rw [hX.hS s, hX.hP s]; exact hX.std) hrdy hlen (by omega)
    (fun pp hp => by obtain ⟨-, -, rfl, -⟩ := hpp pp hp; exact ⟨_, rfl⟩)
  obtain ⟨r, s', -, -, -, -, h5, h6, h7⟩ := Store.encrypt_ok (st' := ((w.node s).st.encrypt (X.env s) (X.addr s.peer) text).2) (Prod.ext h1 rfl)
  have hids : (((w.node s).st.encrypt (X.env s) (X.addr s.peer) text).2).identities =
      upd (w.node s).st.identities (X.addr s.peer) (some (X.ident s.peer)) := by
    obtain ⟨cm', r', str, e1, e2, e3, e4, e5⟩ := hrdy.encrypt (by rw [hX.hS s]; exact hX.std.sm) text hlen
    simp only [Store.encrypt, e3, finish_snd, Store.applyAll, Store.apply, e2, hh.rem]
  generalize hgen : (w.node s).st.encrypt (X.env s) (X.addr s.peer) text = y at *
  obtain ⟨yr, y2⟩ := y
  simp only at h1 h2 h5 h6 hids
  subst h1
  have hp := peer_ne s
  have hpk : ∃ p, pack (X.env s) cm = .ok p ∧ PacketFor X es (c.said s text) (s, p) ⟨s, (c.party s).turn, (c.party s).sent, text⟩ := by
    rcases h4 with ⟨hn, b, m, e1, e2, e3⟩ | ⟨pp, hn, b, pm, e1, e2, e3, e4⟩
    · rw [hX.hS s] at e2 e3
      refine ⟨_, e1, rfl, h.parity s, Nat.le_of_eq (said_turn c s s text).symm, ht, .inl ⟨b, m, rfl, ?_, e2, e3⟩⟩
      intro h1
      cases s with
      | alice => exact hnp hn rfl h1
      | bob => have := h.parity .bob; simp only [par] at this h1; omega
    · obtain ⟨rfl, e5, rfl, e6⟩ := hpp pp hn
      rw [hX.hP .alice] at e2
      rw [hX.hS .alice] at e2 e3
      refine ⟨_, e1, rfl, h.parity _, Nat.le_of_eq (said_turn c _ _ text).symm, ht, .inr ⟨rfl, b, pm, rfl, e2, e3, ?_⟩⟩
      exact ⟨e4.1, e4.2.1, e4.2.2.1, e4.2.2.2.1, e4.2.2.2.2.1, by rw [e4.2.2.2.2.2, e6]⟩
  obtain ⟨p, hpk1, hpk2⟩ := hpk
  refine ⟨p, ⟨y2, (w.node s).pos⟩, ?_, ?_⟩
  · simp only [Node.say, hgen, hpk1]
  have hnode : ∀ t, t ≠ s → upd w.node s ⟨y2, (w.node s).pos⟩ t = w.node t := fun t ht => by simp [upd, ht]
  have hnode_s : upd w.node s ⟨y2, (w.node s).pos⟩ s = ⟨y2, (w.node s).pos⟩ := by simp [upd]
  have hpos : ∀ t, (upd w.node s ⟨y2, (w.node s).pos⟩ t).pos = (w.node t).pos := by
    intro t
    by_cases e : t = s
    · subst e; rw [hnode_s]
    · rw [hnode t e]
  refine ⟨?_, ?_, ?_, ?_, ?_, ?_, ?_, ?_, ?_⟩
  · refine all2_snoc (all2_imp_mem h.wire fun x n _ hx => hx.congr ?_ (fun _ _ => rfl)) hpk2
    rw [said_turn]; exact Nat.le_refl _
  · intro t
    rcases side_cases s t with rfl | rfl
    · refine ⟨st.advance X.C, by rw [said_party_same]; exact h3, .inl ?_⟩
      simp only [hnode_s, said_turn]
      refine ⟨ps, h2, hclean, ?_⟩
      rcases hb with ⟨-, -, -, hb⟩ | ⟨-, hb, -⟩
      · cases t <;> simp only [SState.advance] at hb ⊢ <;> exact hb
      · exact absurd hb ht
    · obtain ⟨st2, q1, q2⟩ := h.party s.peer
      exact ⟨st2, by rw [said_party_peer]; exact q1, by simp only [hnode _ hp]; rw [said_party_peer]; exact q2⟩
  · intro t; simp only [said_turn]; exact h.near t
  · intro t; simp only [said_turn]; exact h.parity t
  · intro t j hj hjl
    simp only [said_turn, hpos] at hjl ⊢
    exact h.keys t j hj hjl
  · intro t j k
    simp only [said_turn]
    exact h.dist t j k
  · intro t
    have := h.room t
    have := said_sent c s t text
    simp only [hpos]
    omega
  · by_cases hs : s = .bob
    · subst hs; simp only [hnode_s]; rw [h6]; exact h.spk
    · simp only [hnode _ (Ne.symm hs)]; exact h.spk
  · by_cases hs : s = .bob
    · subst hs; simp only [hnode_s]; rw [hids]; right; simp [upd, Side.peer]
    · simp only [hnode _ (Ne.symm hs)]; exact h.ident

/-- Archiving the current state of a loaded record and setting up the new one. -/
theorem archive_fresh {r : Rec} (hr : r = Rec.new ∨ ∃ s ps, r = Rec.ofStates s ps ∧ ∀ y ∈ s :: ps, y.Initialised) (s' : SState) :
    (if r.fresh then r else r.archiveCurrentState).state = SState.new ∧
    (let rr := (if r.fresh then r else r.archiveCurrentState).set (if r.fresh then r else r.archiveCurrentState).cur s'
     rr.state = s' ∧ rr.cur ∉ rr.prev ∧ (∀ y ∈ rr.prevStates, y.Initialised) ∧ (r = Rec.new → rr.prev = [])) := by
  rcases hr with rfl | ⟨s, ps, rfl, hin⟩
  · simp [Rec.new, Rec.state, Rec.set, Rec.prevStates]
  · have hf : (Rec.ofStates s ps).fresh = false := rfl
    simp only [hf, Bool.false_eq_true, if_false]
    have hlt := ofStates_lt s ps
    generalize hr : Rec.ofStates s ps = r at *
    have hsub : r.archiveCurrentState.prev.Subset (r.cur :: r.prev) := by
      simp only [Rec.archiveCurrentState, Rec.promote]
      split
      · intro b hb; exact List.dropLast_subset _ hb
      · intro b hb; exact hb
    have hcur : r.archiveCurrentState.cur = r.next := rfl
    have hheap : ∀ b, b ≠ r.next → r.archiveCurrentState.heap b = r.heap b := by
      intro b hb; simp [Rec.archiveCurrentState, Rec.promote, hb]
    have hmem : ∀ b ∈ r.cur :: r.prev, r.heap b ∈ s :: ps := by
      intro b hb
      rcases List.mem_cons.1 hb with rfl | hb
      · have : r.heap r.cur = s := by rw [← hr]; exact ofStates_state s ps
        rw [this]; exact List.mem_cons_self ..
      · have : r.heap b ∈ r.prevStates := List.mem_map_of_mem hb
        rw [← hr, ofStates_prev] at this
        rw [← hr]
        exact List.mem_cons_of_mem _ this
    refine ⟨?_, ?_, ?_, ?_, ?_⟩
    · simp [Rec.archiveCurrentState, Rec.promote, Rec.state]
    · simp [Rec.state]
    · intro hc
      have := hlt _ (hsub hc)
      simp only [Rec.set, hcur] at this
      omega
    · intro y hy
      simp only [Rec.prevStates, List.mem_map] at hy
      obtain ⟨b, hb, rfl⟩ := hy
      have hb' := hsub hb
      have := hlt b hb'
      simp only [Rec.set, hcur]
      rw [if_neg (by omega), hheap b (by omega)]
      exact hin _ (hmem b hb')
    · intro hn
      rw [hn] at hf
      simp [Rec.new] at hf

/-- Bob hears of the session for the first time: processing any of Alice's prekey messages. -/
theorem process_first {X : Setup} (hX : X.Ok) {ids : Addr → Option Key32} {pk spk : UInt32 → Option IdKeyPair} {pm : PreKeyMsg} {r : Rec}
    (ha : AnnouncedBy X pm) (hpk : pk X.otId = some X.ot) (hspk : spk X.spkId = some X.spk)
    (ht : (X.env .bob).trusted ids (X.addr .alice) (X.ident .alice) = true)
    (hr : r = Rec.new ∨ ∃ s ps, r = Rec.ofStates s ps ∧ ∀ y ∈ s :: ps, y.Initialised)
    (hnew : ∀ y ∈ r.state :: r.prevStates, y.senderBaseKey ≠ some X.base) :
    ∃ rr, process (X.env .bob) ids pk spk (X.addr .alice) r pm =
      (.ok (some (OptU32.new X.otId)), rr, [.saveIdentity (X.addr .alice) (some pm.identityKey)]) ∧
      rr.state = X.bobInit ∧ rr.cur ∉ rr.prev ∧ (∀ y ∈ rr.prevStates, y.Initialised) ∧ (r = Rec.new → rr.prev = []) := by
  have hk : ¬ r.hasSessionState pm.struct.version (serPub pm.baseKey) = true := by
    rw [hasSessionState_iff]
    rintro ⟨y, hy, -, hb⟩
    rw [ha.base] at hb
    exact hnew y hy hb
  obtain ⟨h1, h2⟩ := archive_fresh hr X.bobInit
  refine ⟨_, ?_, h2⟩
  unfold process processV3
  rw [ha.identity, if_neg (by simp [ht]), if_neg hk]
  simp only [ha.signedPreKeyId, hspk, ha.preKeyId, OptU32.new, hpk, ha.base, hX.hC, hX.recv]
  rw [if_neg hX.otId]
  simp only [h1, ha.registrationId, Setup.bobInit, Setup.ident, SState.setSenderChain]

/-- Delivering a message to its recipient. -/
theorem Inv.deliver {X : Setup} (hX : X.Ok) {w : World} {c : Conv} {es : Nat → Key32} {left : Nat} (h : Inv X w c es (left + 1))
    {p : Packet} {n : Note} (hp : PacketFor X es c (n.sender, p) n) :
    match (c.party n.sender.peer).receive n.turn n.number with
    | .accepted p' => ∃ n' es', (w.node n.sender.peer).hear (X.env n.sender.peer) (X.addr n.sender) p = (.ok n.text, n') ∧
        Inv X ⟨upd w.node n.sender.peer n', w.wire⟩ (c.set n.sender.peer p') es' left
    | .refused => X.clean → ∃ e n', (w.node n.sender.peer).hear (X.env n.sender.peer) (X.addr n.sender) p = (.err e, n') ∧
        Inv X ⟨upd w.node n.sender.peer n', w.wire⟩ c es left
    | .forgotten => True := by
  obtain ⟨sender, k, i, text⟩ := n
  obtain ⟨-, hpar, hsent, hk0, hop⟩ := hp
  simp only at hpar hsent hk0 hop ⊢
  -- the recipient
  obtain ⟨s, rfl⟩ : ∃ s : Side, sender = s.peer := ⟨sender.peer, (peer_peer sender).symm⟩
  simp only [peer_peer] at hop ⊢
  obtain ⟨st, hh, hb⟩ := h.party s
  have hnear := h.near s.peer
  rw [peer_peer] at hnear
  have hparS := h.parity s
  have hpp : k % 2 = 1 - par s := by rw [hpar, par_peer]
  have hpl := par_lt s
  rcases hop with ⟨b, m, rfl, hk1, hparse, hon⟩ | ⟨hsa, b, pm, rfl, hparse, hon, hann⟩
  · -- an ordinary message
    have hturn : (c.party s).turn ≠ 0 := by
      intro h0
      cases s with
      | alice => simp only [par] at hparS; omega
      | bob => simp only [par] at hpp hparS; omega
    obtain ⟨ps, hrdy, hclean⟩ := hb.ready hturn
    obtain ⟨r, hr, hrec⟩ := h.receive hX s hh hon hpar hsent
    cases hv : (c.party s).receive k i with
    | forgotten => trivial
    | refused =>
      rw [hv] at hrec
      simp only at hrec ⊢
      obtain ⟨e, st', d, hd⟩ := hrec
      intro hcl
      rw [hclean hcl] at hrdy
      have hdd := hrdy.decrypt_err hd
      refine ⟨.noValidSessions, _, ?_, h.refused s (n' := ⟨(w.node s).st, bump (w.node s).pos d⟩) rfl (fun _ hb => hb) ?_⟩
      · simp only [Node.hear, hX.hS, hparse, hdd, Res.map]
      · rintro rfl; exact ⟨h.spk, h.ident⟩
    | accepted p' =>
      rw [hv] at hrec
      simp only at hrec ⊢
      obtain ⟨mk, st', d, es', hd, hh', hpend, hbase, hcase⟩ := hrec
      obtain ⟨n1, hdd, hr', hpk', hspk', hids'⟩ := hrdy.decrypt_ok hd
      have hkept := decryptWithState_kept (X.env s) ((X.env s).rng (w.node s).pos) st m
      rw [hd] at hkept
      have hne : p'.turn ≠ 0 ∧ (s = .alice → p'.turn ≠ 1) := by
        rcases hcase with ⟨-, -, e, -, e2⟩ | ⟨-, -, -, e, -⟩
        · refine ⟨by omega, ?_⟩
          rintro rfl h1
          simp only [par] at hpp hparS
          omega
        · exact ⟨by omega, fun _ => by omega⟩
      refine ⟨⟨n1, bump (w.node s).pos d⟩, es', ?_, h.accepted hX s hr hsent hh' hcase rfl ?_ ?_⟩
      · simp only [Node.hear, hX.hS, hparse, hdd, Res.map]
      · refine .inl ⟨ps, hr', hclean, ?_⟩
        rcases hb with ⟨-, -, -, hb⟩ | ⟨-, hb, -⟩
        · cases s with
          | alice =>
            simp only at hb ⊢
            rw [if_neg (hne.2 rfl)]
            exact ⟨hpend, by rw [hkept.lreg]; exact hb.2⟩
          | bob =>
            simp only at hb ⊢
            exact ⟨hpend, by rw [hbase]; exact hb.2.1, hne.1⟩
        · exact absurd hb hturn
      · rintro rfl
        rw [hspk', hids', hh'.rem]
        exact ⟨h.spk, .inr (by simp [upd, Side.peer])⟩
  · -- a prekey message, so the recipient is Bob
    have hs : s = .bob := by cases s with
      | alice => simp [Side.peer] at hsa
      | bob => rfl
    subst hs
    have htrust := hX.trust _ (h.ident.imp_left And.right)
    obtain ⟨r, hr, hrec⟩ := h.receive hX .bob hh hon hpar hsent
    -- processing the prekey part leads to the state `st`
    obtain ⟨r0, rr, id, hload, hproc, hcur, hins, hprev, hstate⟩ : ∃ r0 rr id, (w.node .bob).st.load (X.addr .alice) = .ok r0 ∧
        process (X.env .bob) (w.node .bob).st.identities (w.node .bob).st.preKeys (w.node .bob).st.signedPreKeys (X.addr .alice) r0 pm =
          (.ok (some id), rr, [.saveIdentity (X.addr .alice) (some pm.identityKey)]) ∧ rr.cur ∉ rr.prev ∧
          (∀ y ∈ rr.prevStates, y.Initialised) ∧ (X.clean → rr.prev = []) ∧ rr.state = st := by
      rcases hb with ⟨ps, hrdy, hclean, -, hb, -⟩ | ⟨-, -, ⟨r0, hl0, hr0, hn0⟩, hb, hpk, rfl⟩
      · refine ⟨Rec.ofStates st ps, Rec.ofStates st ps, OptU32.empty, hrdy.load, ?_, (List.nodup_cons.1 (ofStates_nodup st ps)).1, ?_, ?_,
          ofStates_state _ _⟩
        · refine (C15_repeated_preKey_message _ _ _ _ 0 _ _ _ ?_ (by rw [hann.identity]; exact htrust)).1
          refine ⟨st, by simp [ofStates_state], ?_, by rw [hb, hann.base]⟩
          rw [hh.version, hann.version]
        · rw [ofStates_prev]; exact hrdy.inits
        · intro hcl; rw [hclean hcl]; rfl
      · obtain ⟨rr, q1, q2, q3, q4, q5⟩ := process_first hX hann hpk h.spk htrust hr0 hn0
        refine ⟨r0, rr, _, hl0, q1, q3, q4, ?_, q2⟩
        intro hcl
        simp only [Store.load, hb hcl, Res.ok.injEq] at hl0
        exact q5 hl0.symm
    have hv3 : rr.state.version = currentVersion := by rw [hstate]; exact hh.version
    have hinit : rr.state.Initialised := by rw [hstate]; exact hh.init
    have hidn : pm.identityKey = X.ident .alice := hann.identity
    cases hv : (c.party .bob).receive k i with
    | forgotten => trivial
    | refused =>
      rw [hv] at hrec
      simp only at hrec ⊢
      obtain ⟨e, st', d, hd⟩ := hrec
      intro hcl
      have hdd := Store.decryptPreKey_single_err hload hproc (hprev hcl) (by rw [hstate]; exact hd)
      refine ⟨.noValidSessions, _, ?_, h.refused .bob (n' := ⟨{ (w.node .bob).st with identities := upd (w.node .bob).st.identities (X.addr .alice) (some pm.identityKey) }, bump (w.node .bob).pos d⟩) rfl ?_ ?_⟩
      · simp only [Node.hear, hX.hS, hX.hP, hparse, Side.peer, hdd, Res.map]
      · intro st2 hb2
        rcases hb2 with ⟨ps2, q1, q2⟩ | q
        · exact .inl ⟨ps2, q1.saveIdentity _, q2⟩
        · exact .inr q
      · intro _; exact ⟨h.spk, .inr (by simp [upd, hidn])⟩
    | accepted p' =>
      rw [hv] at hrec
      simp only at hrec ⊢
      obtain ⟨mk, st', d, es', hd, hh', hpend, hbase, hcase⟩ := hrec
      obtain ⟨n1, hdd, hr', hpk', hspk', hids'⟩ := Store.decryptPreKey_current_ok hload hproc hcur hins (by rw [hstate]; exact hd) hinit hv3
      refine ⟨⟨n1, bump (w.node .bob).pos d⟩, es', ?_, h.accepted hX .bob hr hsent hh' hcase rfl ?_ ?_⟩
      · simp only [Node.hear, hX.hS, hX.hP, hparse, Side.peer, hdd, Res.map]
      · refine .inl ⟨rr.prevStates, hr', fun hcl => by simp [Rec.prevStates, hprev hcl], hpend, ?_, ?_⟩
        · rw [hbase]
          rcases hb with ⟨-, -, -, -, hb, -⟩ | ⟨-, -, -, -, -, rfl⟩
          · exact hb
          · rfl
        · simp only [par] at hpp hparS
          rcases hcase with ⟨-, -, e, -, e2⟩ | ⟨-, -, -, e, -⟩ <;> omega
      · intro _
        rw [hspk', hids', hidn]
        exact ⟨h.spk, .inr (by simp [upd])⟩

/-- What the users observe, against the specification. -/
def Matches : Outcome → Out → Prop
  | .said, .said (.ok ()) => True
  | .got t, .heard (.ok t') => t' = t
  | .rejected, .heard (.err _) => True
  | _, _ => False

theorem Inv.run {X : Setup} (hX : X.Ok) (evs : List Event) (hl : ∀ s t, Event.say s t ∈ evs → t.length < 2 ^ 63) :
    ∀ {w : World} {c : Conv} {es : Nat → Key32}, Inv X w c es evs.length → ∀ outs, c.run evs = some outs → (X.clean ∨ Outcome.rejected ∉ outs) →
      All2 Matches outs (w.run X.env X.addr evs) := by
  induction evs with
  | nil => intro w c es _ outs ho _; simp only [Talk.Conv.run, Option.some.injEq] at ho; subst ho; exact .nil
  | cons ev evs ih =>
    intro w c es h outs ho hcl
    have ih := @ih (fun s t hm => hl s t (List.mem_cons_of_mem _ hm))
    simp only [Talk.Conv.run] at ho
    simp only [World.run]
    simp only [List.length_cons] at h
    cases ev with
    | say s text =>
      by_cases ht : (c.party s).turn = 0
      · simp [Talk.Conv.step, ht] at ho
      · obtain ⟨p, n, h1, h2⟩ := h.say hX s (hl s text (List.mem_cons_self ..)) ht
        have hstep : c.step (.say s text) = some (.said, c.said s text) := by simp only [Talk.Conv.step, if_neg ht]; rfl
        simp only [hstep, Option.map_eq_some_iff] at ho
        obtain ⟨os, ho1, rfl⟩ := ho
        simp only [World.step, h1]
        exact .cons trivial (ih h2 _ ho1 (hcl.imp_right fun q m => q (List.mem_cons_of_mem _ m)))
    | deliver i =>
      cases hn : c.notes[i]? with
      | none => simp [Talk.Conv.step, hn] at ho
      | some n =>
        obtain ⟨⟨sd, p⟩, hw, hp⟩ := all2_get h.wire hn
        have hsd : sd = n.sender := hp.side
        subst hsd
        have hd := h.deliver hX hp
        simp only [Talk.Conv.step, hn] at ho
        simp only [World.step, hw]
        cases hv : (c.party n.sender.peer).receive n.turn n.number with
        | forgotten => rw [hv] at ho; simp at ho
        | refused =>
          rw [hv] at ho hd
          simp only [Option.map_eq_some_iff] at ho hd
          obtain ⟨os, ho1, rfl⟩ := ho
          obtain ⟨e, n', h1, h2⟩ := hd (hcl.resolve_right fun q => q (List.mem_cons_self ..))
          rw [h1]
          exact .cons trivial (ih h2 _ ho1 (hcl.imp_right fun q m => q (List.mem_cons_of_mem _ m)))
        | accepted p' =>
          rw [hv] at ho hd
          simp only [Option.map_eq_some_iff] at ho hd
          obtain ⟨os, ho1, rfl⟩ := ho
          obtain ⟨n', es', h1, h2⟩ := hd
          rw [h1]
          exact .cons rfl (ih h2 _ ho1 (hcl.imp_right fun q m => q (List.mem_cons_of_mem _ m)))

/-- The public half of the `i`-th key pair a user generates. -/
def Env.drawn (E : Env) (i : Nat) : Option Key32 := (E.rng i).map fun r => E.C.basePub (clamp r)

/-- For the draws `i`, `from ≤ i < to`, the random source works and gives different keys. -/
structure Env.GoodRandom (E : Env) (lo hi : Nat) : Prop where
  works : ∀ i, lo ≤ i → i < hi → E.rng i ≠ none
  distinct : ∀ i j, lo ≤ i → i < j → j < hi → E.drawn i ≠ E.drawn j

/-- The situation C03 is about.  `A`, `B`: what Alice and Bob are configured with; `stA`, `stB` their stores; `addrA`, `addrB` the address
under which the peer knows them; `posA`, `posB` the position in their random sources; `b` the bundle; `n` the number of events to come. -/
structure Meeting (C : Crypto) (A B : Env) (addrA addrB : Addr) (stA stB stA' : Store) (posA posB posA' : Nat) (b : Bundle) (spk ot : IdKeyPair)
    (n : Nat) : Prop where
  /-- both use the same primitives and the same of the library's two serializers (protobuf or JSON) -/
  cryptoA : A.C = C
  cryptoB : B.C = C
  serA : Std A.S A.P
  serB : B.S = A.S ∧ B.P = A.P
  /-- key pairs are key pairs -/
  idA : A.identity.pub = C.basePub A.identity.priv
  idB : B.identity.pub = C.basePub B.identity.priv
  spkPair : spk.pub = C.basePub spk.priv
  otPair : ot.pub = C.basePub ot.priv
  /-- the bundle carries Bob's identity, signed prekey and one-time prekey, which Bob has in his stores -/
  bIdentity : b.identityKey = B.identity.pub
  bSigned : b.signedPreKeyPublic = some spk.pub
  bOneTime : b.preKeyPublic = some ot.pub
  bOneTimeId : ∃ id, b.preKeyId = some (OptU32.new id) ∧ id ≠ mediumMaxValue ∧ stB.preKeys id = some ot
  bSignedId : stB.signedPreKeys b.signedPreKeyId = some spk
  /-- neither has a session with the other -/
  newA : stA.sessions addrB = none
  newB : stB.sessions addrA = none
  /-- Bob has no other key for Alice and accepts her key in that case -/
  knownB : stB.identities addrA = none ∨ stB.identities addrA = some A.identity.pub
  trustB : ∀ ids, ids addrA = none ∨ ids addrA = some A.identity.pub → B.trusted ids addrA A.identity.pub = true
  /-- Alice processed the bundle -/
  processed : stA.processBundle A posA addrB b = (.ok (), stA', posA')
  /-- random numbers -/
  randA : A.GoodRandom (posA + 1) (posA + 2 + n)
  randB : B.GoodRandom posB (posB + n)
  randSpk : ∀ i, posB ≤ i → i < posB + n → B.drawn i ≠ some spk.pub

/-- Both sides' values. -/
def sides {α : Type} (a b : α) : Side → α
  | .alice => a
  | .bob => b

/-- What a store loads: a new record, or one whose states are all complete. -/
theorem load_shape {st : Store} {a : Addr} {r : Rec} (h : st.load a = .ok r) :
    (r = Rec.new ∨ ∃ s ps, r = Rec.ofStates s ps ∧ ∀ y ∈ s :: ps, y.Initialised) ∧ (st.sessions a = none → r = Rec.new) := by
  have hinit : ∀ (x : StateStruct) (y : SState), SState.ofStruct x = .ok y → y.Initialised := by
    intro x y hy
    unfold SState.ofStruct at hy
    generalize hb : both (decodePoint x.localIdentity) _ = o at hy
    cases o with
    | err e => simp at hy
    | panic => simp at hy
    | ok v =>
      obtain ⟨li, ri, bk, pk, sc, rcs⟩ := v
      simp only [Res.map_ok, Res.ok.injEq] at hy
      subst hy
      simp [SState.Initialised]
  have hseq : ∀ (l : List StateStruct) (ys : List SState), seqRes (l.map SState.ofStruct) = .ok ys → ∀ y ∈ ys, y.Initialised := by
    intro l
    induction l with
    | nil => intro ys h y hy; simp only [List.map_nil, seqRes, Res.ok.injEq] at h; subst h; simp at hy
    | cons x l ih =>
      intro ys h y hy
      simp only [List.map_cons, seqRes] at h
      cases h1 : SState.ofStruct x with
      | err e => simp [h1] at h
      | panic => simp [h1] at h
      | ok z =>
        cases h2 : seqRes (l.map SState.ofStruct) with
        | err e => simp [h1, h2] at h
        | panic => simp [h1, h2] at h
        | ok zs =>
          simp only [h1, h2, Res.bind_ok, Res.map_ok, Res.ok.injEq] at h
          subst h
          rcases List.mem_cons.1 hy with rfl | hy
          · exact hinit x _ h1
          · exact ih zs h2 y hy
  unfold Store.load at h
  cases hs : st.sessions a with
  | none =>
    simp only [hs, Res.ok.injEq] at h
    exact ⟨.inl h.symm, fun _ => h.symm⟩
  | some s0 =>
    simp only [hs] at h
    refine ⟨.inr ?_, by simp⟩
    unfold Rec.ofStruct at h
    cases h1 : seqRes (s0.previous.map SState.ofStruct) with
    | err e => simp [h1] at h
    | panic => simp [h1] at h
    | ok ps =>
      simp only [h1, Res.bind_ok] at h
      cases h2 : SState.ofStruct s0.state with
      | err e => simp [h2] at h
      | panic => simp [h2] at h
      | ok s =>
        simp only [h2, Res.map_ok, Res.ok.injEq] at h
        refine ⟨s, ps, h.symm, ?_⟩
        intro y hy
        rcases List.mem_cons.1 hy with rfl | hy
        · exact hinit _ _ h2
        · exact hseq _ _ h1 y hy

/-- The situation C71 is about: as in `Meeting`, but either user may have sessions with the other already.  -/
structure Renewal (C : Crypto) (A B : Env) (addrA addrB : Addr) (stA stB stA' : Store) (posA posB posA' : Nat) (b : Bundle) (spk ot : IdKeyPair)
    (n : Nat) : Prop where
  cryptoA : A.C = C
  cryptoB : B.C = C
  serA : Std A.S A.P
  serB : B.S = A.S ∧ B.P = A.P
  idA : A.identity.pub = C.basePub A.identity.priv
  idB : B.identity.pub = C.basePub B.identity.priv
  spkPair : spk.pub = C.basePub spk.priv
  otPair : ot.pub = C.basePub ot.priv
  bIdentity : b.identityKey = B.identity.pub
  bSigned : b.signedPreKeyPublic = some spk.pub
  bOneTime : b.preKeyPublic = some ot.pub
  bOneTimeId : ∃ id, b.preKeyId = some (OptU32.new id) ∧ id ≠ mediumMaxValue ∧ stB.preKeys id = some ot
  bSignedId : stB.signedPreKeys b.signedPreKeyId = some spk
  /-- Bob's store for Alice, if he has one, is readable, and none of its sessions was set up with the base key Alice generates now -/
  readable : ∃ r, stB.load addrA = .ok r ∧ ∀ s ∈ r.state :: r.prevStates, s.senderBaseKey = none ∨ s.senderBaseKey ≠ A.drawn posA
  knownB : stB.identities addrA = none ∨ stB.identities addrA = some A.identity.pub
  trustB : ∀ ids, ids addrA = none ∨ ids addrA = some A.identity.pub → B.trusted ids addrA A.identity.pub = true
  /-- Alice processed the bundle -/
  processed : stA.processBundle A posA addrB b = (.ok (), stA', posA')
  randA : A.GoodRandom (posA + 1) (posA + 2 + n)
  randB : B.GoodRandom posB (posB + n)
  randSpk : ∀ i, posB ≤ i → i < posB + n → B.drawn i ≠ some spk.pub

/-- A first meeting is a special case. -/
theorem Meeting.renewal {C : Crypto} {A B : Env} {addrA addrB : Addr} {stA stB stA' : Store} {posA posB posA' : Nat}
    {b : Bundle} {spk ot : IdKeyPair} {n : Nat} (h : Meeting C A B addrA addrB stA stB stA' posA posB posA' b spk ot n) :
    Renewal C A B addrA addrB stA stB stA' posA posB posA' b spk ot n :=
  ⟨h.cryptoA, h.cryptoB, h.serA, h.serB, h.idA, h.idB, h.spkPair, h.otPair, h.bIdentity, h.bSigned, h.bOneTime, h.bOneTimeId, h.bSignedId,
   ⟨Rec.new, by simp only [Store.load, h.newB], by intro s hs; simp only [Rec.new, Rec.state, Rec.prevStates, List.map_nil, List.mem_singleton] at hs; subst hs; exact .inl rfl⟩,
   h.knownB, h.trustB, h.processed, h.randA, h.randB, h.randSpk⟩

theorem Renewal.inv {C : Crypto} (hdh : C.DhLaw) (haes : C.AesLaw) {A B : Env} {addrA addrB : Addr} {stA stB stA' : Store} {posA posB posA' : Nat}
    {b : Bundle} {spk ot : IdKeyPair} {n : Nat} (h : Renewal C A B addrA addrB stA stB stA' posA posB posA' b spk ot n) (hn : n < 2 ^ 32) :
    ∃ X es, X.Ok ∧ X.env = sides A B ∧ X.addr = sides addrA addrB ∧ X.tofu = (stB.identities addrA = none) ∧ X.clean = (stA.sessions addrB = none ∧ stB.sessions addrA = none) ∧
      (b.preKeyId = some (OptU32.new X.otId) ∧ X.spkId = b.signedPreKeyId) ∧ Inv X ⟨sides ⟨stA', posA'⟩ ⟨stB, posB⟩, []⟩ Conv.start es n := by
  obtain ⟨otId, hid, hidm, hot⟩ := h.bOneTimeId
  obtain ⟨r, spk', r', hchk, hload, hbuild, hload', hsome, hpk, hspk, hids⟩ := Store.processBundle_ok h.processed
  have hshape := load_shape hload
  have hspk' : spk' = spk.pub := by
    unfold checkBundle at hchk
    rw [h.bSigned] at hchk
    split at hchk
    · simp at hchk
    · simp only at hchk
      split at hchk
      · simp at hchk
      · simpa using hchk.symm
  subst hspk'
  obtain ⟨base, bp, ratchet, derived, sending, hg1, hbp, hcs, hg2, hcc, hr', hpos', -⟩ := buildFromBundle_ok hbuild
  have harch := archive_fresh hshape.1
  -- the generated keys
  obtain ⟨r0, hr0⟩ : ∃ r0, A.rng posA = some r0 := by
    cases hx : A.rng posA with
    | none => rw [hx] at hg1; simp [generateKeyPair] at hg1
    | some r0 => exact ⟨r0, rfl⟩
  obtain ⟨r1, hr1⟩ : ∃ r1, A.rng (posA + 1) = some r1 := by
    cases hx : A.rng (posA + 1) with
    | none => rw [hx] at hg2; simp [generateKeyPair] at hg2
    | some r0 => exact ⟨r0, rfl⟩
  rw [hr0] at hg1
  rw [hr1] at hg2
  simp only [generateKeyPair, Res.ok.injEq] at hg1 hg2
  subst hg1 hg2
  simp only [Option.some.injEq] at hbp
  subst hbp
  rw [h.cryptoA] at hcs hcc
  rw [createChain_eq _ _ _ _ (p := clamp r1) rfl] at hcc
  simp only [Res.ok.injEq] at hcc
  -- Bob derives the same keys
  obtain ⟨k, hk1, hk2, -, -, hk5⟩ := C01_x3dh_agreement C hdh A.identity.priv (clamp r0) B.identity.priv spk.priv (some ot.priv)
  have hidA : (⟨C.basePub A.identity.priv, A.identity.priv⟩ : IdKeyPair) = A.identity := by rw [← h.idA]
  have hidB : (⟨C.basePub B.identity.priv, B.identity.priv⟩ : IdKeyPair) = B.identity := by rw [← h.idB]
  rw [hidA] at hk1
  rw [hidB, ← h.idA] at hk2
  simp only [Option.map_some, ← h.idB, ← h.spkPair, ← h.otPair] at hk1
  rw [h.bIdentity, h.bOneTime, hk1] at hcs
  simp only [Res.ok.injEq] at hcs
  subst hcs
  let X : Setup := { C := C, S := A.S, P := A.P, env := sides A B, addr := sides addrA addrB, k0 := k, spk := spk, ot := ot, spkId := b.signedPreKeyId, otId := otId,
                     base := C.basePub (clamp r0), start := sides (posA + 1) posB, lim := sides (posA + 2 + n) (posB + n), tofu := stB.identities addrA = none,
                     clean := stA.sessions addrB = none ∧ stB.sessions addrA = none }
  let es : Nat → Key32 := fun j => if j = 0 then spk.priv else clamp r1
  have hXi : X.ident = sides A.identity.pub B.identity.pub := by funext s; cases s <;> rfl
  have hkey : ∀ (E : Env) (i j : Nat) (r r' : Key32), E.C = C → E.rng i = some r → E.rng j = some r' → E.drawn i ≠ E.drawn j →
      C.basePub (clamp r) ≠ C.basePub (clamp r') := by
    intro E i j r r' hC e1 e2 hd he
    apply hd
    simp only [Env.drawn, e1, e2, hC, Option.map_some, he]
  have hX : X.Ok := by
    refine ⟨hdh, haes, ?_, ?_, ?_, h.serA, ?_, ?_, ?_, h.spkPair, hidm, ?_, ?_⟩
    · intro s; cases s
      · exact h.cryptoA
      · exact h.cryptoB
    · intro s; cases s
      · rfl
      · exact h.serB.1
    · intro s; cases s
      · rfl
      · exact h.serB.2
    · intro s i h1 h2; cases s
      · exact h.randA.works i h1 h2
      · exact h.randB.works i h1 h2
    · intro s i j r r' h1 h2 h3 h4 h5; cases s
      · exact hkey A i j r r' h.cryptoA h4 h5 (h.randA.distinct i j h1 h2 h3)
      · exact hkey B i j r r' h.cryptoB h4 h5 (h.randB.distinct i j h1 h2 h3)
    · intro i r h1 h2 h3 he
      have h3 : B.rng i = some r := h3
      exact h.randSpk i h1 h2 (by simp only [Env.drawn, h3, h.cryptoB, Option.map_some]; rw [he])
    · intro ids hids; exact h.trustB ids hids
    · exact hk2
  refine ⟨X, es, hX, rfl, rfl, rfl, rfl, ⟨hid, rfl⟩, ?_⟩
  have hst : r'.state = initSenderState A SState.new b spk.pub ⟨C.basePub (clamp r0), some (clamp r0)⟩ ⟨C.basePub (clamp r1), some (clamp r1)⟩ k sending := by
    rw [hr', (harch (initSenderState A (if r.fresh then r else r.archiveCurrentState).state b spk.pub ⟨A.C.basePub (clamp r0), some (clamp r0)⟩
      ⟨A.C.basePub (clamp r1), some (clamp r1)⟩ k sending)).2.1, (harch SState.new).1, h.cryptoA]
  have hl1 : level C k es 1 = sending := by
    rw [← hcc]
    simp [level, es, h.spkPair]
  have hA : Holds C k es A.identity.pub B.identity.pub r'.state ⟨1, 0, [(0, Window.empty)]⟩ := by
    rw [hst]
    refine ⟨rfl, rfl, ?_, by simp [initSenderState], ?_, ?_, ?_, ?_, by simp, by simp, hk5⟩
    · simp [initSenderState, SState.addReceiverChain, SState.setSenderChain, h.bIdentity]
    · simp only [hl1]; rfl
    · simp only [hl1]; rfl
    · exact .cons ⟨h.spkPair, refines_new _ _ _ hk5, by simp [Window.empty]⟩ .nil
    · intro x hx; simp only [List.mem_singleton] at hx; subst hx; simp
  have hB : Holds C k es B.identity.pub A.identity.pub X.bobInit ⟨0, 0, []⟩ := by
    refine ⟨rfl, rfl, rfl, by simp [Setup.bobInit], rfl, ?_, .nil, by simp, by simp, by simp, hk5⟩
    simp only [Setup.bobInit, level, ChainKey.iter]
    rw [h.spkPair]
    rfl
  refine ⟨.nil, ?_, ?_, ?_, ?_, ?_, ?_, h.bSignedId, h.knownB.imp_left fun e => ⟨e, e⟩⟩
  · intro s
    cases s with
    | alice =>
      refine ⟨r'.state, by rw [hXi]; exact hA, .inl ⟨r'.prevStates, ⟨hload', hA.init, ?_, hA.version⟩, ?_, ?_⟩⟩
      · rw [hr']; exact (harch _).2.2.2.1
      · intro hcl
        have : r'.prev = [] := by rw [hr']; exact (harch _).2.2.2.2 (hshape.2 hcl.1)
        simp [Rec.prevStates, this]
      · simp only
        rw [hst]
        refine ⟨?_, rfl⟩
        show some (PendingPreKey.mk b.preKeyId b.signedPreKeyId _) = some _
        rw [hid]
    | bob =>
      refine ⟨X.bobInit, by rw [hXi]; exact hB, .inr ⟨rfl, rfl, ?_, fun hcl => hcl.2, hot, rfl⟩⟩
      obtain ⟨rb, hlb, hnb⟩ := h.readable
      refine ⟨rb, hlb, (load_shape hlb).1, ?_⟩
      intro y hy he
      rcases hnb y hy with e | e
      · rw [e] at he; simp at he
      · apply e
        rw [he]
        simp only [Env.drawn, hr0, Option.map_some, h.cryptoA, X]
  · intro s; cases s <;> simp [Conv.start, Conv.party, Side.peer]
  · intro s; cases s <;> simp [Conv.start, Conv.party, par]
  · intro s j hj hjl
    cases s with
    | alice =>
      simp only [Conv.start, Conv.party, par] at hj hjl
      have : j = 1 := by omega
      subst this
      exact .inl ⟨posA + 1, r1, Nat.le_refl _, by show posA + 1 < posA'; omega, hr1, by simp [es]⟩
    | bob =>
      simp only [Conv.start, Conv.party, par] at hj hjl
      have : j = 0 := by omega
      subst this
      exact .inr ⟨rfl, rfl, by simp [es, X]⟩
  · intro s i j hi hj hil hjl _
    cases s <;> simp only [Conv.start, Conv.party, par] at hi hj hil hjl <;> omega
  · intro s
    cases s with
    | alice => exact ⟨by show posA + 1 ≤ posA'; omega, by show posA' + n ≤ posA + 2 + n; omega, by show 0 + n < 2 ^ 32; omega⟩
    | bob => exact ⟨Nat.le_refl _, Nat.le_refl _, by show 0 + n < 2 ^ 32; omega⟩

theorem Meeting.inv {C : Crypto} (hdh : C.DhLaw) (haes : C.AesLaw) {A B : Env} {addrA addrB : Addr} {stA stB stA' : Store} {posA posB posA' : Nat}
    {b : Bundle} {spk ot : IdKeyPair} {n : Nat} (h : Meeting C A B addrA addrB stA stB stA' posA posB posA' b spk ot n) (hn : n < 2 ^ 32) :
    ∃ X es, X.Ok ∧ X.env = sides A B ∧ X.addr = sides addrA addrB ∧ X.tofu = (stB.identities addrA = none) ∧ X.clean ∧
      (b.preKeyId = some (OptU32.new X.otId) ∧ X.spkId = b.signedPreKeyId) ∧ Inv X ⟨sides ⟨stA', posA'⟩ ⟨stB, posB⟩, []⟩ Conv.start es n := by
  obtain ⟨X, es, h1, h2, h3, h4, h5, h6, h7⟩ := h.renewal.inv hdh haes hn
  exact ⟨X, es, h1, h2, h3, h4, by rw [h5]; exact ⟨h.newA, h.newB⟩, h6, h7⟩

/-- **C03.** Alice has processed Bob's bundle; neither had a session with the other.  From then on anything may happen: either user says
something, or the network delivers any message sent so far to its recipient: in any order, repeatedly, or never.  Then what the users observe is what
the specification (Spec/Talk) says: saying succeeds, and a delivered message is decrypted to the text that was sent if its number is acceptable to the receive
window of its turn, and is otherwise refused with an error (never a panic), for as long as the specification covers the events (messages of the five newest turns, Bob not
speaking before he heard something). -/
theorem C03_conversation {C : Crypto} (hdh : C.DhLaw) (haes : C.AesLaw) {A B : Env} {addrA addrB : Addr} {stA stB stA' : Store} {posA posB posA' : Nat}
    {b : Bundle} {spk ot : IdKeyPair} (evs : List Event) (h : Meeting C A B addrA addrB stA stB stA' posA posB posA' b spk ot evs.length)
    (hn : evs.length < 2 ^ 32) (ht : ∀ s t, Event.say s t ∈ evs → t.length < 2 ^ 63) (outs : List Outcome) (ho : Conv.start.run evs = some outs) :
    All2 Matches outs (World.run (sides A B) (sides addrA addrB) ⟨sides ⟨stA', posA'⟩ ⟨stB, posB⟩, []⟩ evs) := by
  obtain ⟨X, es, hX, h1, h2, -, hcl, -, hi⟩ := h.inv hdh haes hn
  have := hi.run hX evs ht outs ho (.inl hcl)
  rw [h1, h2] at this
  exact this

section
open Toy

/-- A conversation with reordering, a replay, answers and ratchet steps. -/
def toyTalk : List Event :=
  [.say .alice [1], .say .alice [2, 2], .say .alice [3], .deliver 1, .say .bob [4], .deliver 1, .deliver 0, .deliver 3, .say .alice [5],
   .deliver 4, .deliver 2, .say .bob [6], .say .bob [7], .deliver 6, .deliver 5]

set_option maxRecDepth 100000 in
/-- Non-vacuity of C03: the toy users meet, and the specification covers the conversation above: everything arrives once, the replay
(second delivery of message 1) is refused. -/
theorem toy_meeting : Meeting Toy.C aliceEnv bobEnv Toy.alice Toy.bob emptyStore bobStore alice1 0 0 2 bundle signedPre oneTime toyTalk.length := by
  refine ⟨rfl, rfl, .inl ⟨rfl, rfl⟩, ⟨rfl, rfl⟩, rfl, rfl, rfl, rfl, rfl, rfl, rfl, ⟨9, rfl, by decide, rfl⟩, rfl, rfl, rfl, .inl rfl, ?_, ?_, ⟨?_, ?_⟩, ⟨?_, ?_⟩, ?_⟩
  · intro ids h
    show (match ids Toy.alice with | none => true | some k' => k' == aliceEnv.identity.pub) = true
    rcases h with h | h <;> rw [h]
    simp
  · refine Prod.ext (by decide +kernel) (Prod.ext rfl (by decide +kernel))
  · intro i _ _ h; simp [aliceEnv, env] at h
  · intro i j h1 h2 h3
    have : ∀ j < 17, ∀ i < j, aliceEnv.drawn i ≠ aliceEnv.drawn j := by decide +kernel
    exact this j (by simpa [toyTalk] using h3) i h2
  · intro i _ _ h; simp [bobEnv, env] at h
  · intro i j h1 h2 h3
    have : ∀ j < 15, ∀ i < j, bobEnv.drawn i ≠ bobEnv.drawn j := by decide +kernel
    exact this j (by simpa [toyTalk] using h3) i h2
  · intro i h1 h2
    have : ∀ i < 15, bobEnv.drawn i ≠ some signedPre.pub := by decide +kernel
    exact this i (by simpa [toyTalk] using h2)

set_option maxRecDepth 100000 in
/-- The same users with the JSON serializer. -/
theorem toy_meeting_json : Meeting Toy.C aliceJ bobJ Toy.alice Toy.bob emptyStore bobStore alice1 0 0 2 bundle signedPre oneTime toyTalk.length := by
  refine ⟨rfl, rfl, .inr ⟨rfl, rfl⟩, ⟨rfl, rfl⟩, rfl, rfl, rfl, rfl, rfl, rfl, rfl, ⟨9, rfl, by decide, rfl⟩, rfl, rfl, rfl, .inl rfl, ?_, ?_, ⟨?_, ?_⟩, ⟨?_, ?_⟩, ?_⟩
  · intro ids h
    show (match ids Toy.alice with | none => true | some k' => k' == aliceJ.identity.pub) = true
    rcases h with h | h <;> rw [h]
    simp
  · refine Prod.ext (by decide +kernel) (Prod.ext rfl (by decide +kernel))
  · intro i _ _ h; simp [aliceJ, aliceEnv, env] at h
  · intro i j h1 h2 h3
    have : ∀ j < 17, ∀ i < j, aliceJ.drawn i ≠ aliceJ.drawn j := by decide +kernel
    exact this j (by simpa [toyTalk] using h3) i h2
  · intro i _ _ h; simp [bobJ, bobEnv, env] at h
  · intro i j h1 h2 h3
    have : ∀ j < 15, ∀ i < j, bobJ.drawn i ≠ bobJ.drawn j := by decide +kernel
    exact this j (by simpa [toyTalk] using h3) i h2
  · intro i h1 h2
    have : ∀ i < 15, bobJ.drawn i ≠ some signedPre.pub := by decide +kernel
    exact this i (by simpa [toyTalk] using h2)

set_option maxRecDepth 100000 in
example : Conv.start.run toyTalk = some [.said, .said, .said, .got [2, 2], .said, .rejected, .got [1], .got [4], .said,
    .got [5], .got [3], .said, .said, .got [7], .got [6]] := by decide +kernel
end

end Verif
