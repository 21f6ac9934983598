import Verif.Props.Hostile
/-
C71: a session can be set up anew, whatever sessions exist already.  C72: both users set up a session with the other at the same time.
-/
set_option linter.unusedSimpArgs false
namespace Verif
open Talk

/-- **C71.** Either user may have any number of earlier sessions with the other (established by whom, used, archived or half-finished: anything the stores can hold).  Alice
processes a new bundle of Bob's.  From then on, in every schedule of saying and delivering that the specification of C03 covers (Spec/Talk) and that contains no repetition or
message beyond the limits (outcome `rejected`), every message of the new session is decrypted to the text that was sent.  (For rejections see C18 and C19: a message that the new
session refuses is tried on the old ones.) -/
theorem C71_renewed_session {C : Crypto} (hdh : C.DhLaw) (haes : C.AesLaw) {A B : Env} {addrA addrB : Addr} {stA stB stA' : Store} {posA posB posA' : Nat}
    {b : Bundle} {spk ot : IdKeyPair} (evs : List Event) (h : Renewal C A B addrA addrB stA stB stA' posA posB posA' b spk ot evs.length)
    (hn : evs.length < 2 ^ 32) (ht : ∀ s t, Event.say s t ∈ evs → t.length < 2 ^ 63) (outs : List Outcome) (ho : Conv.start.run evs = some outs)
    (hrej : Outcome.rejected ∉ outs) :
    All2 Matches outs (World.run (sides A B) (sides addrA addrB) ⟨sides ⟨stA', posA'⟩ ⟨stB, posB⟩, []⟩ evs) := by
  obtain ⟨X, es, hX, h1, h2, -, -, -, hi⟩ := h.inv hdh haes hn
  have := hi.run hX evs ht outs ho (.inr hrej)
  rw [h1, h2] at this
  exact this

section
open Toy

/-- A conversation without rejections: reordering, answers, ratchet steps. -/
def toyTalk2 : List Event :=
  [.say .alice [1], .say .alice [2, 2], .say .alice [3], .deliver 1, .say .bob [4], .deliver 0, .deliver 3, .say .alice [5],
   .deliver 4, .deliver 2, .say .bob [6], .say .bob [7], .deliver 6, .deliver 5]

set_option maxRecDepth 100000 in
/-- Non-vacuity of C71: Alice and Bob have used a session (with messages still under way) when Alice processes Bob's second bundle. -/
theorem toy_renewal : Renewal Toy.C aliceEnv bobEnv Toy.alice Toy.bob enc4.2 bob2' alice5 3 1 5 bundle2 signedPre oneTime2 toyTalk2.length := by
  refine ⟨rfl, rfl, .inl ⟨rfl, rfl⟩, ⟨rfl, rfl⟩, rfl, rfl, rfl, rfl, rfl, rfl, rfl, ⟨10, rfl, by decide, rfl⟩, by decide +kernel,
    ⟨recOf bob2' Toy.alice, ?_, ?_⟩, .inr (by decide +kernel), ?_, ?_, ⟨?_, ?_⟩, ⟨?_, ?_⟩, ?_⟩
  · have h : ∃ r, bob2'.load Toy.alice = .ok r := by
      cases hl : bob2'.load Toy.alice with
      | ok r => exact ⟨r, rfl⟩
      | err e => have : (match bob2'.load Toy.alice with | .ok _ => true | _ => false) = true := by decide +kernel
                 rw [hl] at this; simp at this
      | panic => have : (match bob2'.load Toy.alice with | .ok _ => true | _ => false) = true := by decide +kernel
                 rw [hl] at this; simp at this
    obtain ⟨r, hr⟩ := h
    simp only [recOf, hr]
  · have : ∀ s ∈ (recOf bob2' Toy.alice).state :: (recOf bob2' Toy.alice).prevStates, s.senderBaseKey = none ∨ s.senderBaseKey ≠ aliceEnv.drawn 3 := by decide +kernel
    exact this
  · intro ids h
    show (match ids Toy.alice with | none => true | some k' => k' == aliceEnv.identity.pub) = true
    rcases h with h | h <;> rw [h]
    simp
  · refine Prod.ext (by decide +kernel) (Prod.ext rfl (by decide +kernel))
  · intro i _ _ h; simp [aliceEnv, env] at h
  · intro i j h1 h2 h3
    have : ∀ j < 30, ∀ i < j, aliceEnv.drawn i ≠ aliceEnv.drawn j := by decide +kernel
    exact this j (by simp only [toyTalk2, List.length_cons, List.length_nil] at h3; omega) i h2
  · intro i _ _ h; simp [bobEnv, env] at h
  · intro i j h1 h2 h3
    have : ∀ j < 30, ∀ i < j, bobEnv.drawn i ≠ bobEnv.drawn j := by decide +kernel
    exact this j (by simp only [toyTalk2, List.length_cons, List.length_nil] at h3; omega) i h2
  · intro i h1 h2
    have : ∀ i < 30, bobEnv.drawn i ≠ some signedPre.pub := by decide +kernel
    exact this i (by simp only [toyTalk2, List.length_cons, List.length_nil] at h2; omega)

example : Conv.start.run toyTalk2 = some
    [.said, .said, .said, .got [2, 2], .said, .got [1], .got [4], .said, .got [5], .got [3], .said, .said, .got [7], .got [6]] := by decide +kernel
end

/-! ### Both at once -/

/-- Encrypting keeps older sessions as they are. -/
theorem Unmet.encrypt {st st' : Store} {E : Env} {a : Addr} {base : Key32} {pt : Bytes} {cm : CipherMsg} (hS : StdSM E.S) {s : SState} {ps : List SState}
    (hr : Ready st a s ps) (hpt : pt.length < 2 ^ 63) (h : Unmet st a base) (he : st.encrypt E a pt = (.ok cm, st')) : Unmet st' a base := by
  obtain ⟨cm', -, -, h3⟩ := hr.step hS pt hpt
  rw [he] at h3
  simp only at h3
  obtain ⟨r, hl, -, hb⟩ := h
  rw [hr.load] at hl
  cases hl
  rw [ofStates_state, ofStates_prev] at hb
  refine ⟨_, h3.load, .inr ⟨_, _, rfl, ?_⟩, ?_⟩
  · intro y hy
    rcases List.mem_cons.1 hy with rfl | hy
    · exact h3.init
    · exact h3.inits y hy
  · rw [ofStates_state, ofStates_prev]
    intro y hy
    rcases List.mem_cons.1 hy with rfl | hy
    · exact hb s (List.mem_cons_self ..)
    · exact hb y (List.mem_cons_of_mem _ hy)

/-- What `say` does to the store. -/
theorem Node.say_ok {E : Env} {a : Addr} {n n' : Node} {text : Bytes} {p : Packet} (h : n.say E a text = (.ok p, n')) :
    ∃ cm, n.st.encrypt E a text = (.ok cm, n'.st) ∧ n'.pos = n.pos := by
  unfold Node.say at h
  cases he : n.st.encrypt E a text with
  | mk res st' =>
    rw [he] at h
    cases res with
    | ok cm => simp only [Prod.mk.injEq] at h; obtain ⟨-, rfl⟩ := h; exact ⟨cm, rfl, rfl⟩
    | err e => simp at h
    | panic => simp at h

/-- The other user's own session does not get in the way of hearing of this one: Bob says something on a session of his own before he hears Alice's first message. -/
theorem Inv.bystander {X : Setup} {w : World} {c : Conv} {es : Nat → Key32} {left : Nat} (h : Inv X w c es left) (hturn : (c.party .bob).turn = 0)
    {n' : Node} (hpos : n'.pos = (w.node .bob).pos) (hpk : n'.st.preKeys = (w.node .bob).st.preKeys)
    (hspk : n'.st.signedPreKeys = (w.node .bob).st.signedPreKeys) (hid : n'.st.identities (X.addr .alice) = some (X.ident .alice))
    (hu : Unmet (w.node .bob).st (X.addr .alice) X.base → Unmet n'.st (X.addr .alice) X.base) (hcl : ¬ X.clean) :
    Inv X ⟨upd w.node .bob n', w.wire⟩ c es left := by
  refine Inv.untouched (m := 0) h .bob (by omega) ?_ ?_
  · intro st hb
    rcases hb with ⟨ps, -, -, -, -, ht⟩ | ⟨q1, q2, q3, q4, q5, q6⟩
    · exact absurd hturn ht
    · exact .inr ⟨q1, q2, hu q3, fun q => absurd q hcl, by rw [hpk]; exact q5, q6⟩
  · intro _
    rw [hspk]
    exact ⟨h.spk, .inr hid⟩

theorem processBundle_isSome {E : Env} {st st' : Store} {pos pos' : Nat} {a : Addr} {b : Bundle}
    (h : st.processBundle E pos a b = (.ok (), st', pos')) : st'.sessions a ≠ none := by
  obtain ⟨-, -, -, -, -, -, -, hs, -⟩ := Store.processBundle_ok h
  intro hn; rw [hn] at hs; simp at hs

/-- One direction: Alice says something, Bob says something on his own session, then Bob hears what Alice said. -/
theorem crossing_one {C : Crypto} (hdh : C.DhLaw) (haes : C.AesLaw) {A B : Env} {addrA addrB : Addr} {stA stB stA' : Store} {posA posB posA' : Nat}
    {b : Bundle} {spk ot : IdKeyPair} {n : Nat} (h : Renewal C A B addrA addrB stA stB stA' posA posB posA' b spk ot (n + 2)) (hn : n + 2 < 2 ^ 32)
    {ta : Bytes} (hta : ta.length < 2 ^ 63) :
    ∃ p nA, (Node.mk stA' posA').say A addrB ta = (.ok p, nA) ∧
      (∃ s ps, Ready stA' addrB s ps ∧ s.remoteIdentity = some B.identity.pub) ∧
      ∀ nB' : Node, nB'.pos = posB → nB'.st.preKeys = stB.preKeys → nB'.st.signedPreKeys = stB.signedPreKeys →
        nB'.st.identities addrA = some A.identity.pub → stB.sessions addrA ≠ none →
        (∀ base, Unmet stB addrA base → Unmet nB'.st addrA base) →
        ∃ nB'', nB'.hear B addrA p = (.ok ta, nB'') := by
  obtain ⟨X, es, hX, h1, h2, -, h4, -, hi⟩ := h.inv hdh haes hn
  obtain ⟨st0, hh0, hb0⟩ := hi.party .alice
  obtain ⟨ps0, hr0, -⟩ := hb0.ready (by simp [Conv.start, Conv.party])
  obtain ⟨p, nA, hs, hi2⟩ := hi.say hX .alice hta (by simp [Conv.start, Conv.party])
  have ha : X.addr .alice = addrA := by rw [h2]; rfl
  have hb : X.addr .bob = addrB := by rw [h2]; rfl
  have hidA : X.ident .alice = A.identity.pub := by simp only [Setup.ident, h1, sides]
  have hidB : X.ident .bob = B.identity.pub := by simp only [Setup.ident, h1, sides]
  simp only [Side.peer, h1, hb, sides] at hs hr0 hh0 hi2
  refine ⟨p, nA, hs, ⟨st0, ps0, hr0, by rw [hh0.rem, hidB]⟩, ?_⟩
  intro nB' hpos hpk hspk hid hsome hu
  have hcl : ¬ X.clean := by rw [h4]; exact fun q => hsome q.2
  have hi3 := hi2.bystander (n' := nB') (by simp [Conv.start, Conv.said, Conv.set, Conv.party])
    (by simpa [upd, sides] using hpos) (by simpa [upd, sides] using hpk) (by simpa [upd, sides] using hspk) (by rw [ha, hidA]; exact hid)
    (by rw [ha]; simpa [upd, sides] using hu X.base) hcl
  obtain ⟨x, hx, hp⟩ := all2_get hi3.wire (i := 0) (b := ⟨.alice, 1, 0, ta⟩) (by simp [Conv.start, Conv.said, Conv.set, Conv.party])
  simp only [List.nil_append, List.getElem?_cons_zero, Option.some.injEq] at hx
  subst hx
  have hd := hi3.deliver hX (p := p) (n := ⟨.alice, 1, 0, ta⟩) hp
  have hrcv : (Conv.party (Conv.said Conv.start .alice ta) .bob).receive 1 0 = .accepted ⟨2, 0, [(1, ((Window.accept Talk.limits Window.empty 0).map (·.2)).getD Window.empty)]⟩ := by
    rfl
  simp only [Side.peer] at hd
  rw [hrcv] at hd
  obtain ⟨n', es', hd, -⟩ := hd
  simp only [h1, ha, sides, upd] at hd
  exact ⟨n', hd⟩

/-- **C72 (first messages).** Alice has processed a bundle of Bob's and Bob one of Alice's, so each has set up a session of their own (`hA`, `hB`; any older sessions may exist as
well).  Each sends a first message before having heard the other's.  Both messages are decrypted to what was sent. -/
theorem C72_first_messages_partial {C : Crypto} (hdh : C.DhLaw) (haes : C.AesLaw) {A B : Env} {addrA addrB : Addr} {stA stA' stB stB' : Store}
    {posA posA' posB posB' : Nat} {bA bB : Bundle} {spkA otA spkB otB : IdKeyPair}
    (hA : Renewal C A B addrA addrB stA stB' stA' posA posB' posA' bB spkB otB 2) (hB : Renewal C B A addrB addrA stB stA' stB' posB posA' posB' bA spkA otA 2)
    (ta tb : Bytes) (hta : ta.length < 2 ^ 63) (htb : tb.length < 2 ^ 63) :
    World.run (sides A B) (sides addrA addrB) ⟨sides ⟨stA', posA'⟩ ⟨stB', posB'⟩, []⟩ [.say .alice ta, .say .bob tb, .deliver 0, .deliver 1] =
      [.said (.ok ()), .said (.ok ()), .heard (.ok ta), .heard (.ok tb)] := by
  obtain ⟨p, nA, hs1, ⟨sA, psA, hrA, hremA⟩, hearB⟩ := crossing_one (n := 0) hdh haes hA (by decide) hta
  obtain ⟨q, nB, hs2, ⟨sB, psB, hrB, hremB⟩, hearA⟩ := crossing_one (n := 0) hdh haes hB (by decide) htb
  obtain ⟨ca, hea, hpa⟩ := Node.say_ok hs1
  obtain ⟨cb, heb, hpb⟩ := Node.say_ok hs2
  simp only at hea heb hpa hpb
  have kept : ∀ {E : Env} {st st' : Store} {a : Addr} {t : Bytes} {cm : CipherMsg} {s : SState} {ps : List SState} {k : Key32}, Std E.S E.P → t.length < 2 ^ 63 →
      Ready st a s ps → s.remoteIdentity = some k → st.encrypt E a t = (.ok cm, st') →
      st'.preKeys = st.preKeys ∧ st'.signedPreKeys = st.signedPreKeys ∧ st'.identities a = some k ∧ (∀ base, Unmet st a base → Unmet st' a base) := by
    intro E st st' a t cm s ps k hS ht hr hk he
    obtain ⟨r, s', hl, hes, -, -, h5, h6, h7⟩ := Store.encrypt_ok he
    refine ⟨h5, h6, ?_, fun base hu => hu.encrypt hS.sm hr ht he⟩
    obtain ⟨cm', h8, -, -⟩ := hr.step hS.sm t ht
    rw [hr.load] at hl
    cases hl
    rw [ofStates_state, h8] at hes
    simp only [Prod.mk.injEq] at hes
    rw [h7, ← hes.2]
    simp [upd, SState.advance, hk]
  obtain ⟨a1, a2, a3, a4⟩ := kept hA.serA hta hrA hremA hea
  obtain ⟨b1, b2, b3, b4⟩ := kept hB.serA htb hrB hremB heb
  obtain ⟨nB', hhB⟩ := hearB nB hpb b1 b2 b3 (processBundle_isSome hB.processed) b4
  obtain ⟨nA', hhA⟩ := hearA nA hpa a1 a2 a3 (processBundle_isSome hA.processed) a4
  simp [World.run, World.step, sides, Side.peer, upd, hs1, hs2, hhB, hhA]

section
open Toy
/-- Alice's prekeys: one-time prekey 3, signed prekey 4. -/
def oneTimeA : IdKeyPair := idPair 60
def signedPreA : IdKeyPair := idPair 70
def aliceKeys : Store :=
  { emptyStore with preKeys := fun i => if i = 3 then some oneTimeA else none,
                    signedPreKeys := fun i => if i = 4 then some signedPreA else none }
/-- Alice's bundle. -/
def bundleA : Bundle :=
  { registrationId := 200, deviceId := 1, preKeyId := some (OptU32.new 3), preKeyPublic := some oneTimeA.pub,
    signedPreKeyId := 4, signedPreKeyPublic := some signedPreA.pub,
    signature := C.sign (idPair 11).priv (serPub signedPreA.pub) sig0, identityKey := (idPair 11).pub }
/-- Alice after processing Bob's bundle, Bob after processing hers. -/
def aliceX : Store := (aliceKeys.processBundle aliceEnv 0 Toy.bob bundle).2.1
def bobX : Store := (bobStore.processBundle bobEnv 0 Toy.alice bundleA).2.1

theorem load_recOf {st : Store} {a : Addr} (h : (match st.load a with | .ok _ => true | _ => false) = true) : st.load a = .ok (recOf st a) := by
  unfold recOf
  cases hl : st.load a with
  | ok r => rfl
  | err e => rw [hl] at h; simp at h
  | panic => rw [hl] at h; simp at h

set_option maxRecDepth 100000 in
/-- Non-vacuity of C72: neither had a session, each processed the other's bundle. -/
theorem toy_crossing (n : Nat) (hn : n ≤ 20) : Renewal Toy.C aliceEnv bobEnv Toy.alice Toy.bob aliceKeys bobX aliceX 0 2 2 bundle signedPre oneTime n ∧
    Renewal Toy.C bobEnv aliceEnv Toy.bob Toy.alice bobStore aliceX bobX 0 2 2 bundleA signedPreA oneTimeA n := by
  have rA : ∀ j < 30, ∀ i < j, aliceEnv.drawn i ≠ aliceEnv.drawn j := by decide +kernel
  have rB : ∀ j < 30, ∀ i < j, bobEnv.drawn i ≠ bobEnv.drawn j := by decide +kernel
  constructor
  · refine ⟨rfl, rfl, .inl ⟨rfl, rfl⟩, ⟨rfl, rfl⟩, rfl, rfl, rfl, rfl, rfl, rfl, rfl, ⟨9, rfl, by decide, by decide +kernel⟩, by decide +kernel,
      ⟨recOf bobX Toy.alice, load_recOf (by decide +kernel), ?_⟩, .inr (by decide +kernel), ?_, ?_, ⟨?_, ?_⟩, ⟨?_, ?_⟩, ?_⟩
    · have : ∀ s ∈ (recOf bobX Toy.alice).state :: (recOf bobX Toy.alice).prevStates, s.senderBaseKey = none ∨ s.senderBaseKey ≠ aliceEnv.drawn 0 := by decide +kernel
      exact this
    · intro ids h
      show (match ids Toy.alice with | none => true | some k' => k' == aliceEnv.identity.pub) = true
      rcases h with h | h <;> rw [h]
      simp
    · refine Prod.ext (by decide +kernel) (Prod.ext rfl (by decide +kernel))
    · intro i _ _ h; simp [aliceEnv, env] at h
    · intro i j h1 h2 h3; exact rA j (by omega) i h2
    · intro i _ _ h; simp [bobEnv, env] at h
    · intro i j h1 h2 h3; exact rB j (by omega) i h2
    · intro i h1 h2
      have : ∀ i < 30, bobEnv.drawn i ≠ some signedPre.pub := by decide +kernel
      exact this i (by omega)
  · refine ⟨rfl, rfl, .inl ⟨rfl, rfl⟩, ⟨rfl, rfl⟩, rfl, rfl, rfl, rfl, rfl, rfl, rfl, ⟨3, rfl, by decide, by decide +kernel⟩, by decide +kernel,
      ⟨recOf aliceX Toy.bob, load_recOf (by decide +kernel), ?_⟩, .inr (by decide +kernel), ?_, ?_, ⟨?_, ?_⟩, ⟨?_, ?_⟩, ?_⟩
    · have : ∀ s ∈ (recOf aliceX Toy.bob).state :: (recOf aliceX Toy.bob).prevStates, s.senderBaseKey = none ∨ s.senderBaseKey ≠ bobEnv.drawn 0 := by decide +kernel
      exact this
    · intro ids h
      show (match ids Toy.bob with | none => true | some k' => k' == bobEnv.identity.pub) = true
      rcases h with h | h <;> rw [h]
      simp
    · refine Prod.ext (by decide +kernel) (Prod.ext rfl (by decide +kernel))
    · intro i _ _ h; simp [bobEnv, env] at h
    · intro i j h1 h2 h3; exact rB j (by omega) i h2
    · intro i _ _ h; simp [aliceEnv, env] at h
    · intro i j h1 h2 h3; exact rA j (by omega) i h2
    · intro i h1 h2
      have : ∀ i < 30, aliceEnv.drawn i ≠ some signedPreA.pub := by decide +kernel
      exact this i (by omega)

/-- Both say something, both hear it; again; and again.  Every message is delivered exactly once, in the order of sending. -/
def crossTalk : List Event :=
  [.say .alice [1], .say .bob [2], .deliver 0, .deliver 1, .say .alice [3], .say .bob [4], .deliver 2, .deliver 3,
   .say .alice [5], .say .bob [6], .deliver 4, .deliver 5, .say .alice [7], .deliver 6, .say .bob [8], .deliver 7]

set_option maxRecDepth 100000 in
/-- **C72, false.** When both set up a session at once (in the situation of `C72_first_messages_partial`) and then talk at the same time, every message being delivered once and in
order, the users soon cannot understand each other any more, in either direction: each message of one session that arrives while the other session is current corrupts the
latter (see C19) before it is decrypted with the former; after two rounds both sessions are corrupted on one side each, and each user goes on sending on the session the other has
lost. -/
theorem C72_crossing_false : ∃ (C : Crypto) (A B : Env) (addrA addrB : Addr) (stA stA' stB stB' : Store) (posA posA' posB posB' : Nat) (bA bB : Bundle)
    (spkA otA spkB otB : IdKeyPair), C.DhLaw ∧ C.AesLaw ∧
    Renewal C A B addrA addrB stA stB' stA' posA posB' posA' bB spkB otB crossTalk.length ∧
    Renewal C B A addrB addrA stB stA' stB' posB posA' posB' bA spkA otA crossTalk.length ∧
    stA.sessions addrB = none ∧ stB.sessions addrA = none ∧
    World.run (sides A B) (sides addrA addrB) ⟨sides ⟨stA', posA'⟩ ⟨stB', posB'⟩, []⟩ crossTalk =
      [.said (.ok ()), .said (.ok ()), .heard (.ok [1]), .heard (.ok [2]), .said (.ok ()), .said (.ok ()), .heard (.ok [3]), .heard (.ok [4]),
       .said (.ok ()), .said (.ok ()), .heard (.err .noValidSessions), .heard (.err .noValidSessions),
       .said (.ok ()), .heard (.err .noValidSessions), .said (.ok ()), .heard (.err .noValidSessions)] :=
  ⟨Toy.C, aliceEnv, bobEnv, Toy.alice, Toy.bob, aliceKeys, aliceX, bobStore, bobX, 0, 2, 0, 2, bundleA, bundle, signedPreA, oneTimeA, signedPre, oneTime,
    Toy.dhLaw, Toy.aesLaw, (toy_crossing _ (by decide)).1, (toy_crossing _ (by decide)).2, rfl, rfl, by decide +kernel⟩
end

end Verif
