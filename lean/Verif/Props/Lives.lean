import Verif.Props.Authentic
import Verif.Props.Provenance
/-
C97: any number of users live their lives (any calls, any received bytes, store operations, deaths within calls) with an attacker in between.  What one of them accepts in a session
whose set-up mixed a Diffie-Hellman output that the attacker does not know was sent by the holder of the accepted identity, to him, with that plaintext.
-/
set_option linter.unusedSimpArgs false
namespace Verif
open Schedule Sym

/-! ### What is claimed -/

/-- A user: its keys, trust policy and random source, what it starts with, and what it does. -/
structure User where
  env : Env
  start : Node
  life : List Deed

namespace User

/-- The user's public identity key. -/
def me (u : User) : Key32 := u.env.identity.pub

/-- After `pre`, the user made the call, and lived to see the answer `ans`. -/
def Did (u : User) (pre : List Deed) (c : Call) (ans : Answer) : Prop :=
  (∃ post, u.life = pre ++ ⟨.call c, none⟩ :: post) ∧ ((u.start.deeds u.env pre).st.call u.env (u.start.deeds u.env pre).pos c).1 = ans

/-- After `pre`, the user encrypted `pt` for the address `a`, which gave the message `cm`. -/
def Sends (u : User) (pre : List Deed) (a : Addr) (pt : Bytes) (cm : CipherMsg) : Prop := u.Did pre (.encrypt a pt) (.encrypted (.ok cm))

/-- After `pre`, the user accepted the message `m` under the address `a` (by `Decrypt`, or as the content of a prekey message by `DecryptMessage`) and got `pt`. `upTo` is its life up
to and including this call if it was `DecryptMessage`, and `pre` otherwise. -/
def Accepts (u : User) (pre upTo : List Deed) (a : Addr) (m : SignalMsg) (pt : Bytes) : Prop :=
  ∃ k, (u.Did pre (.decrypt a m) (.decrypted (.ok (pt, k))) ∧ upTo = pre) ∨
    ∃ p : PreKeyMsg, p.message = m ∧ u.Did pre (.decryptPreKey a p) (.decrypted (.ok (pt, k))) ∧ upTo = pre ++ [⟨.call (.decryptPreKey a p), none⟩]

end User

/-- The Diffie-Hellman outputs that a call mixes to set up a session, and the symbolic state the session starts in when those in `U` are unknown. -/
inductive Mixes (E : Env) (n : Node) : Call → List Bytes → ((Bytes → Prop) → State) → Prop
  | bundle {a : Addr} {b : Bundle} {spk rb rr : Key32} : b.signedPreKeyPublic = some spk → E.rng n.pos = some rb → E.rng (n.pos + 1) = some rr →
      Mixes E n (.processBundle a b) (initiatorDhs E b spk (clamp rb)) fun U => initiatorStart E U b spk (clamp rb) (clamp rr)
  | message {a : Addr} {m : PreKeyMsg} {spk : IdKeyPair} {ot : Option Key32} : n.st.signedPreKeys m.struct.signedPreKeyId = some spk →
      (ot = m.struct.preKeyId.bind fun o => (n.st.preKeys o.value).map (·.priv)) →
      Mixes E n (.decryptPreKey a m) (responderDhs E m spk.priv ot) fun U => responderStart E U m spk.priv ot

/-- In the course of `ds` the user set up, under `a`, the session that starts in `s0` with the identity `peer`, which the application accepted; `dhs` are the Diffie-Hellman outputs mixed
and `t0` is the symbolic state it starts in. -/
def User.Session (u : User) (ds : List Deed) (a : Addr) (peer : Key32) (s0 : SState) (dhs : List Bytes) (t0 : (Bytes → Prop) → State) : Prop :=
  ∃ pre c dies post, ds = pre ++ ⟨.call c, dies⟩ :: post ∧ (∀ d ∈ post, d.what ≠ .deleteSession a) ∧ SetUp u.env (u.start.deeds u.env pre) a c peer s0 ∧
    Mixes u.env (u.start.deeds u.env pre) c dhs t0

/-- In a session that starts in `s0`, symbolically in `t0`, the event used the keys `k`, and put or found on its message the tag made with them. -/
def Keyed (E : Env) (me peer : Key32) (x : Bytes) (s0 : SState) (t0 : State) (e : Event) (k : Use) : Prop :=
  ∃ s s' evs t es t', History E s0 s evs ∧ History E s s' [e] ∧ Run (· = x) t0 t es ∧ SymHolds E.C.H s t ∧ Run (· = x) t t' [k] ∧ SymHolds E.C.H s' t' ∧
    e.tagged E me peer k

/-- The tags on the messages the user sent (under MAC key `k`, over the bytes `b`), when `x` is unknown to the attacker. -/
def User.Tag (u : User) (x : Bytes) (k : Term) (b : Bytes) : Prop :=
  ∃ pre a pt cm peer s0 dhs t0 use, u.Sends pre a pt cm ∧ u.Session pre a peer s0 dhs t0 ∧ Keyed u.env u.me peer x s0 (t0 (· = x)) (.sent pt cm) use ∧ k = use.keys.mac ∧
    Covers u.env.S u.me peer cm.inner b

/-- What the attacker can compute who knows everything that does not contain `x` and has seen the tags on all messages of all users. -/
def Attacker {ι : Type} (users : ι → User) (x : Bytes) : Term → Prop := Sym.Knows (Seen (.atom [] x) fun k b => ∃ j, (users j).Tag x k b)

/-- Everybody uses the same cryptography and serializer and starts without sessions, and slices fit in memory. -/
structure Society {ι : Type} (users : ι → User) (C : Crypto) (S : Ser SMStruct) : Prop where
  crypto : ∀ i, (users i).env.C = C
  ser : ∀ i, (users i).env.S = S
  std : StdSM S
  empty : ∀ i a, (users i).start.st.sessions a = none
  small : ∀ i a pt dies, ⟨.call (.encrypt a pt), dies⟩ ∈ (users i).life → pt.length < 2 ^ 63

/-! ### Proofs -/

theorem SetUp.mixes {E : Env} {n : Node} {a : Addr} {c : Call} {k : Key32} {s0 : SState} (h : SetUp E n a c k s0) :
    ∃ dhs t0, Mixes E n c dhs t0 ∧ ∀ U, SymHolds E.C.H s0 (t0 U) := by
  cases h with
  | @bundle b spk r pos' effs ht hs hv hb =>
    obtain ⟨base, bp, ratchet, derived, sending, g1, g2, g3, g4, g5, g6, -⟩ := buildFromBundle_ok hb
    have hgen : ∀ (o : Option Key32) (kp : KeyPair), generateKeyPair E.C o = .ok kp → ∃ q, o = some q ∧ kp = ⟨E.C.basePub (clamp q), some (clamp q)⟩ := by
      intro o kp ho
      cases o with
      | none => simp [generateKeyPair] at ho
      | some q => simp only [generateKeyPair, Res.ok.injEq] at ho; exact ⟨q, rfl, ho.symm⟩
    obtain ⟨rb, hrb, rfl⟩ := hgen _ _ g1
    obtain ⟨rr, hrr, rfl⟩ := hgen _ _ g4
    simp only [Option.some.injEq] at g2
    subst g2
    refine ⟨_, _, .bundle hs hrb hrr, fun U => ?_⟩
    rw [C54_initiator] at g3
    simp only [Res.ok.injEq] at g3
    rw [createChain_eq E.C _ _ _ rfl] at g5
    simp only [Res.ok.injEq] at g5
    obtain ⟨e1, e2⟩ := x3dh_eval E.C U (E.C.dh spk E.identity.priv).bytes (E.C.dh b.identityKey (clamp rb)).bytes
      (E.C.dh spk (clamp rb)).bytes (b.preKeyPublic.map fun o => (E.C.dh o (clamp rb)).bytes)
    have hroot : derived.root = (x3dhRoot ((initiatorDhs E b spk (clamp rb)).map (dhTerm U))).eval E.C.H := by
      rw [← g3]; exact e1.symm
    have hchain : derived.chain.key = (x3dhChain ((initiatorDhs E b spk (clamp rb)).map (dhTerm U))).eval E.C.H := by
      rw [← g3]; exact e2.symm
    obtain ⟨k1, k2⟩ := kdfRoot_eval E.C (d := dhTerm U (E.C.dh spk (clamp rr)).bytes) (v := E.C.dh spk (clamp rr)) hroot (dhTerm_eval _ _ _).symm
    rw [g5] at k1 k2
    have hst : r.state = initSenderState E SState.new b spk ⟨E.C.basePub (clamp rb), some (clamp rb)⟩
        ⟨E.C.basePub (clamp rr), some (clamp rr)⟩ derived sending := by
      rw [g6]; simp [Rec.state, Rec.set, Rec.new]
    rw [hst]
    refine ⟨congrArg some k1, ⟨_, rfl, k2, rfl⟩, ?_⟩
    have : (initSenderState E SState.new b spk ⟨E.C.basePub (clamp rb), some (clamp rb)⟩
      ⟨E.C.basePub (clamp rr), some (clamp rr)⟩ derived sending).receiverChains = [⟨⟨spk, none⟩, derived.chain, []⟩] := by
      simp [initSenderState, SState.addReceiverChain, SState.setSenderChain, SState.new, maxReceiverChains]
    rw [this]
    exact .cons ⟨rfl, hchain, .nil⟩ .nil
  | @message m id r ht hv =>
    have hk : ¬ Knows Rec.new m := by
      rintro ⟨s, hs, -, hb⟩
      simp only [Rec.new, Rec.state, Rec.prevStates, List.map_nil, List.mem_cons, List.not_mem_nil, or_false] at hs
      subst hs
      simp [SState.new] at hb
    obtain ⟨kp, ot, keys, hkp, hcalc, hot, e⟩ := processV3_new hk hv
    have hfresh : (Rec.new).fresh = true := rfl
    simp only [hfresh, if_true] at e
    have hst : r.state = respond E Rec.new.state m kp keys := by rw [e]; simp [Rec.state, Rec.set]
    refine ⟨_, _, .message hkp (ot := ot) ?_, fun U => ?_⟩
    · rcases hot with ⟨h5, h6⟩ | ⟨o, kp2, h5, h6, h7⟩
      · rw [h5, h6]; rfl
      · rw [h5, h7]; simp [h6]
    rw [C54_responder] at hcalc
    simp only [Res.ok.injEq] at hcalc
    obtain ⟨e1, e2⟩ := x3dh_eval E.C U (E.C.dh m.identityKey kp.priv).bytes (E.C.dh m.baseKey E.identity.priv).bytes
      (E.C.dh m.baseKey kp.priv).bytes (ot.map fun o => (E.C.dh m.baseKey o).bytes)
    rw [hst]
    refine ⟨?_, ⟨_, rfl, ?_, rfl⟩, .nil⟩
    · rw [← hcalc]; exact congrArg some e1.symm
    · rw [← hcalc]; exact e2.symm

theorem Mixes.guarded {E : Env} {n : Node} {c : Call} {dhs : List Bytes} {t0 : (Bytes → Prop) → State} (h : Mixes E n c dhs t0) {x : Bytes} (hx : x ∈ dhs) :
    Guarded (.atom [] x) (fun _ => False) (t0 (· = x)) := by
  cases h with
  | bundle => exact initiatorStart_guarded E _ _ _ _ x hx
  | message => exact responderStart_guarded E _ _ _ x hx

theorem Mixes.kempt {E : Env} {n : Node} {c : Call} {dhs : List Bytes} {t0 : (Bytes → Prop) → State} (h : Mixes E n c dhs t0) (U : Bytes → Prop) : Kempt (t0 U) := by
  cases h with
  | bundle => exact kempt_initiator _ _ _ _
  | message => exact kempt_responder _ _

theorem Acquired.session {u : User} {ds : List Deed} {a : Addr} {k : Key32} {s0 : SState} (h : Acquired u.env u.start ds a k s0) :
    ∃ dhs t0, u.Session ds a k s0 dhs t0 ∧ Between s0 u.me k ∧ ∀ U, SymHolds u.env.C.H s0 (t0 U) := by
  obtain ⟨pre, c, dies, post, h1, h2, h3⟩ := h
  obtain ⟨dhs, t0, h4, h5⟩ := h3.mixes
  obtain ⟨i1, i2, i3⟩ := h3.identities
  exact ⟨dhs, t0, ⟨pre, c, dies, post, h1, h2, h3, h4⟩, ⟨i2, i1, i3⟩, h5⟩

theorem History.last_received {E : Env} {s0 s : SState} {l : List Event} (h : History E s0 s l) {evs : List Event} {m : SignalMsg} {pt : Bytes} {k : MsgKeys}
    (hl : l = evs ++ [.received m pt k]) : ∃ s1 s2 d b, History E s0 s1 evs ∧ decryptWithState E d s1 m = (.ok (pt, k), s2, b) := by
  induction h with
  | start => simp at hl
  | sent _ _ _ => have := (List.append_inj' hl rfl).2; simp at this
  | @received s s' evs' draw m' pt' mk d hh hd ih =>
    obtain ⟨h1, h2⟩ := List.append_inj' hl rfl
    simp only [List.cons.injEq, Event.received.injEq, and_true] at h2
    obtain ⟨rfl, rfl, rfl⟩ := h2
    subst h1
    exact ⟨_, _, _, _, hh, hd⟩
  | failed _ _ _ ih => exact ih hl

theorem History.last_sent {E : Env} {s0 s : SState} {l : List Event} (h : History E s0 s l) {evs : List Event} {pt : Bytes} {cm : CipherMsg}
    (hl : l = evs ++ [.sent pt cm]) : ∃ s1 s2, History E s0 s1 evs ∧ encryptState E s1 pt = (.ok cm, s2) := by
  induction h with
  | start => simp at hl
  | received _ _ _ => have := (List.append_inj' hl rfl).2; simp at this
  | @sent s s' evs' pt' cm' hh hd ih =>
    obtain ⟨h1, h2⟩ := List.append_inj' hl rfl
    simp only [List.cons.injEq, Event.sent.injEq, and_true] at h2
    obtain ⟨rfl, rfl⟩ := h2
    subst h1
    exact ⟨_, _, hh, hd⟩
  | failed _ _ _ ih => exact ih hl

theorem Between.history {E : Env} {s0 s : SState} {evs : List Event} {me peer : Key32} (hb : Between s0 me peer) (h : History E s0 s evs) : Between s me peer := by
  obtain ⟨h3, h4, h6⟩ := h.identities
  exact ⟨h4.trans hb.loc, h3.trans hb.remote, h6.trans hb.version⟩

/-- Keys used in a session with an unknown secret contain it, and have the shape the key schedule gives them. -/
theorem Keyed.mentions {E E' : Env} {n : Node} {c : Call} {dhs : List Bytes} {t0 : (Bytes → Prop) → State} (hm : Mixes E' n c dhs t0) {x : Bytes} {me peer : Key32} {s0 : SState}
    {e : Event} {k : Use} (h : Keyed E me peer x s0 (t0 (· = x)) e k) :
    FromChain k.keys ∧ (x ∈ dhs → ∀ y ∈ [k.keys.cipher, k.keys.mac, k.keys.iv], y.mentions (.atom [] x)) := by
  obtain ⟨s, s', evs, t, es, t', -, -, h3, -, h5, -, -⟩ := h
  have hr := h3.trans h5
  refine ⟨(run_kempt hr (hm.kempt _)).2 k (by simp), fun hx => (run_guarded hr (hm.guarded hx)).2 k (by simp) (fun _ _ => not_false)⟩

theorem fromChain_noSeal {k : MsgTerms} (h : FromChain k) : ∀ y ∈ [k.cipher, k.mac, k.iv], NoSeal y := by
  obtain ⟨ck, h1, h2, rfl⟩ := h
  obtain ⟨n1, n2, n3⟩ := noSeal_msg h1 h2
  intro y hy
  simp only [List.mem_cons, List.not_mem_nil, or_false] at hy
  rcases hy with rfl | rfl | rfl
  · exact n1
  · exact n2
  · exact n3

theorem User.Session.mixes {u : User} {ds : List Deed} {a : Addr} {peer : Key32} {s0 : SState} {dhs : List Bytes} {t0 : (Bytes → Prop) → State} (h : u.Session ds a peer s0 dhs t0) :
    ∃ n c, Mixes u.env n c dhs t0 := by
  obtain ⟨_, c, _, _, _, _, _, h⟩ := h
  exact ⟨_, c, h⟩

theorem User.Tag.isMac {u : User} {x : Bytes} {k : Term} {b : Bytes} (h : u.Tag x k b) : IsMac k := by
  obtain ⟨pre, a, pt, cm, peer, s0, dhs, t0, use, -, hs, hk, rfl, -⟩ := h
  obtain ⟨n, c, hm⟩ := hs.mixes
  obtain ⟨ck, -, -, e⟩ := (hk.mentions hm).1
  exact ⟨ck, by rw [e]⟩

/-- **C97 (what is sent).** Every message a user sends belongs to a session that it set up under that address with an identity the application accepted, and carries the tag of both
identities and all its fields.  If the set-up mixed a Diffie-Hellman output that the attacker does not know, he cannot compute the keys of the message, even if he knows everything else
and has seen the tags on all messages of all users.  (Serialising stores; the sessions are followed through archiving, promotion, failed attempts and crashes.) -/
theorem C97_sent_is_secret {ι : Type} (users : ι → User) (C : Crypto) (S : Ser SMStruct) (hw : Society users C S) (i : ι) (pre : List Deed) (a : Addr) (pt : Bytes) (cm : CipherMsg)
    (h : (users i).Sends pre a pt cm) :
    ∃ peer s0 dhs t0, (users i).Session pre a peer s0 dhs t0 ∧ ∀ x,
      (∃ k b, Keyed (users i).env (users i).me peer x s0 (t0 (· = x)) (.sent pt cm) k ∧ Covers S (users i).me peer cm.inner b ∧ TagIs C.H cm.inner (.hash k.keys.mac (.pub b)) ∧
        Attacker users x (.hash k.keys.mac (.pub b))) ∧
      ∀ k, Keyed (users i).env (users i).me peer x s0 (t0 (· = x)) (.sent pt cm) k → x ∈ dhs → ∀ y ∈ [k.keys.cipher, k.keys.mac, k.keys.iv], ¬ Attacker users x y := by
  have hsend := h
  obtain ⟨⟨post, hlife⟩, hans⟩ := h
  have hpt : pt.length < 2 ^ 63 := hw.small i a pt none (by rw [hlife]; simp)
  have hS : StdSM (users i).env.S := by rw [hw.ser i]; exact hw.std
  simp only [Store.call, Answer.encrypted.injEq] at hans
  obtain ⟨peer, s0, evs, r', macKey, hacq, -, hh, -⟩ :=
    (C96_only_accepted_identities_partial (users i).env (users i).start (hw.empty i) pre a).2.2 pt cm _ hS hpt (Prod.ext hans rfl)
  obtain ⟨dhs, t0, hses, hb, hsym⟩ := hacq.session
  obtain ⟨s1, s2, g1, g2⟩ := hh.last_sent rfl
  refine ⟨peer, s0, dhs, t0, hses, fun x => ⟨?_, fun k hk hx y hy => ?_⟩⟩
  · obtain ⟨t, es, us, q1, q2, -, -⟩ := history_run g1 (· = x) _ (hsym _)
    obtain ⟨t', k, p1, p2, p3, -, -⟩ := encrypt_tagged (users i).env hS (· = x) s1 s2 t pt cm (hb.history g1) hpt q2 g2
    have hkey : Keyed (users i).env (users i).me peer x s0 (t0 (· = x)) (.sent pt cm) k :=
      ⟨s1, s2, evs, t, es, t', g1, History.sent (evs := []) .start g2, q1, q2, p1, p2, p3⟩
    obtain ⟨-, ck, ratchet, ct, b, -, -, -, -, hcov, htag⟩ := p3
    refine ⟨k, b, hkey, by rw [← hw.ser i]; exact hcov, by rw [← hw.crypto i]; exact htag, .given (.inr ⟨_, _, ⟨i, ?_⟩, rfl⟩)⟩
    exact ⟨pre, a, pt, cm, peer, s0, dhs, t0, k, hsend, hses, hkey, rfl, hcov⟩
  · obtain ⟨n, c, hm⟩ := hses.mixes
    obtain ⟨f1, f2⟩ := hk.mentions hm
    exact not_seen ⟨_, _, rfl⟩ (fun k c ⟨j, hj⟩ => hj.isMac) (fromChain_noSeal f1 y hy) (f2 hx y hy)

/-- **C97.** Every message a user accepts belongs to a session that it set up under that address with an identity `peer` that the application accepted, and carries a tag of `peer`, the
user and all its fields.  If the set-up mixed a Diffie-Hellman output `x` that the attacker does not know, then he can compute none of the message's keys, and the tag only if a user with
the identity `peer` made a message with the same ratchet key, numbers and ciphertext by `Encrypt`ing that very plaintext in a session with this user's identity.
Whatever all users do in their lives, in any order, whatever they receive, and wherever they crash. (Serialising stores.) -/
theorem C97_accepted_was_sent {ι : Type} (users : ι → User) (C : Crypto) (S : Ser SMStruct) (hA : C.AesLaw) (hw : Society users C S) (i : ι) (pre upTo : List Deed) (a : Addr)
    (m : SignalMsg) (pt : Bytes) (h : (users i).Accepts pre upTo a m pt) (hm : ∀ b, m.struct.ratchetKey = some b ∨ m.struct.cipherText = some b → b.length < 2 ^ 64) :
    ∃ peer s0 dhs t0 mk, (users i).Session upTo a peer s0 dhs t0 ∧ ∀ x,
      (∃ k b, Keyed (users i).env (users i).me peer x s0 (t0 (· = x)) (.received m pt mk) k ∧ Covers S peer (users i).me m b ∧ TagIs C.H m (.hash k.keys.mac (.pub b))) ∧
      ∀ k b, Keyed (users i).env (users i).me peer x s0 (t0 (· = x)) (.received m pt mk) k → Covers S peer (users i).me m b → x ∈ dhs →
        (∀ y ∈ [k.keys.cipher, k.keys.mac, k.keys.iv], ¬ Attacker users x y) ∧
        (Attacker users x (.hash k.keys.mac (.pub b)) →
          ∃ j pre' a' cm s0' dhs' t0', (users j).me = peer ∧ (users j).Sends pre' a' pt cm ∧ SameFields m cm.inner ∧ (users j).Session pre' a' (users i).me s0' dhs' t0') := by
  have hS : StdSM (users i).env.S := by rw [hw.ser i]; exact hw.std
  have core : ∃ mk peer s0 evs s, Acquired (users i).env (users i).start upTo a peer s0 ∧ History (users i).env s0 s (evs ++ [.received m pt mk]) := by
    obtain ⟨mk, ⟨⟨-, hans⟩, rfl⟩ | ⟨p, rfl, ⟨-, hans⟩, rfl⟩⟩ := h
    · simp only [Store.call, Answer.decrypted.injEq] at hans
      obtain ⟨peer, s0, evs, r', hacq, -, hh, -⟩ :=
        (C96_only_accepted_identities_partial (users i).env (users i).start (hw.empty i) upTo a).1 m (pt, mk) _ _ (Prod.ext hans rfl)
      exact ⟨mk, peer, s0, evs, _, hacq, hh⟩
    · simp only [Store.call, Answer.decrypted.injEq] at hans
      obtain ⟨peer, s0, evs, r', hacq, -, hh, -⟩ :=
        (C96_only_accepted_identities_partial (users i).env (users i).start (hw.empty i) pre a).2.1 p (pt, mk) _ _ (Prod.ext hans rfl)
      exact ⟨mk, peer, s0, evs, _, hacq, hh⟩
  obtain ⟨mk, peer, s0, evs, s, hacq, hh⟩ := core
  obtain ⟨dhs, t0, hses, hb, hsym⟩ := hacq.session
  obtain ⟨s1, s2, d, bb, g1, g2⟩ := hh.last_received rfl
  have hsm : (Event.received m pt mk).small := ⟨fun b hb => hm b (.inl hb), fun b hb => hm b (.inr hb)⟩
  refine ⟨peer, s0, dhs, t0, mk, hses, fun x => ⟨?_, fun k b hk hcov hx => ⟨fun y hy => ?_, fun hknow => ?_⟩⟩⟩
  · obtain ⟨t, es, us, q1, q2, -, -⟩ := history_run g1 (· = x) _ (hsym _)
    obtain ⟨t', es', p1, p2, -, p3⟩ := decrypt_tagged (users i).env hS (· = x) s1 s2 t d m _ bb (hb.history g1) q2 g2
    obtain ⟨k, rfl, hk⟩ := p3 _ _ rfl hsm
    refine ⟨k, ?_⟩
    have hkey : Keyed (users i).env (users i).me peer x s0 (t0 (· = x)) (.received m pt mk) k :=
      ⟨s1, s2, evs, t, es, t', g1, History.received (evs := []) .start g2, q1, q2, p1, p2, hk⟩
    obtain ⟨-, ct, b, -, -, hcov, htag⟩ := hk
    exact ⟨b, hkey, by rw [← hw.ser i]; exact hcov, by rw [← hw.crypto i]; exact htag⟩
  · obtain ⟨n, c, hm⟩ := hses.mixes
    obtain ⟨f1, f2⟩ := hk.mentions hm
    exact not_seen ⟨_, _, rfl⟩ (fun k c ⟨j, hj⟩ => hj.isMac) (fromChain_noSeal f1 y hy) (f2 hx y hy)
  · obtain ⟨n, c, hmix⟩ := hses.mixes
    obtain ⟨f1, f2⟩ := hk.mentions hmix
    obtain ⟨j, pre', a', pt', cm, peer', s0', dhs', t0', use, hsend, hses', hk', hmac, hcov'⟩ :=
      no_forgery ⟨_, _, rfl⟩ (fun k c ⟨j, hj⟩ => hj.isMac) (fromChain_noSeal f1 _ (by simp)) (f2 hx _ (by simp)) hknow
    have hpt' : pt'.length < 2 ^ 63 := by
      obtain ⟨⟨post, hlife⟩, -⟩ := hsend
      exact hw.small j a' pt' none (by rw [hlife]; simp)
    obtain ⟨n', c', hmix'⟩ := hses'.mixes
    obtain ⟨c1, -, -, e1⟩ := f1
    obtain ⟨c2, -, -, e2⟩ := (hk'.mentions hmix').1
    have hkeys : k.keys = use.keys := by
      rw [e1, e2] at hmac ⊢
      rw [msg_inj hmac]
    obtain ⟨-, -, -, -, -, -, -, -, -, -, -, -, hka, ct, b', hct, hdec, -, -⟩ := hk
    obtain ⟨-, -, -, -, -, -, -, -, -, -, -, -, -, ck, rp, ct', b'', hka', henc, hrk', hct', -, -⟩ := hk'
    rw [hw.ser j] at hcov'
    obtain ⟨body', hb', hlen⟩ := encryptBody_ok (users j).env.C ck pt'
    rw [henc] at hb'; cases hb'
    obtain ⟨hp, hq, hsame⟩ := covers_inj hcov hcov' fun _ => ⟨fun b hb => hm b (.inl hb), fun b hb => hm b (.inr hb),
      by rw [hrk']; intro y hy; cases hy; simp [serPub, Arr.len], by rw [hct']; intro y hy; cases hy; omega⟩
    have hctt : ct' = ct := by
      have := hsame.2.2.2
      rw [hct, hct'] at this
      exact (Option.some.inj this).symm
    subst hctt
    rw [hw.crypto j] at henc hka'
    rw [hw.crypto i] at hka hdec
    have hdec' := decryptBody_encryptBody C hA ck pt' ct' henc
    rw [← hkeys] at hka'
    have : decryptBody C mk ct' = decryptBody C (ck.msgKeys C) ct' := by
      unfold decryptBody
      rw [hka.iv, hka.cipher, ← hka'.iv, ← hka'.cipher]
    rw [hdec, hdec'] at this
    cases this
    exact ⟨j, pre', a', cm, s0', dhs', t0', hp.symm, hsend, hsame, by rw [hq]; exact hses'⟩

section
open Toy
set_option maxRecDepth 100000

/-- Alice processes Bob's bundle and sends him a message; Bob accepts it. -/
def aliceUser : User := ⟨aliceEnv, ⟨emptyStore, 0⟩, [⟨.call (.processBundle bob bundle), none⟩, ⟨.call (.encrypt bob [104, 105]), none⟩]⟩
def bobUser : User := ⟨bobEnv, ⟨bobStore, 0⟩, [⟨.call (.decryptPreKey alice msg1), none⟩, ⟨.call (.encrypt alice [9, 9]), none⟩]⟩
def toyUsers (i : Bool) : User := if i then bobUser else aliceUser

theorem toyUsers_society : Society toyUsers C protoSM := by
  refine ⟨fun i => by cases i <;> rfl, fun i => by cases i <;> rfl, .inl rfl, fun i a => by cases i <;> rfl, fun i a pt dies h => ?_⟩
  cases i <;> simp [toyUsers, aliceUser, bobUser] at h <;> rw [h.1.2] <;> decide

theorem alice_sends : ∃ cm, cm.inner = msg1.message ∧ aliceUser.Sends [⟨.call (.processBundle bob bundle), none⟩] bob [104, 105] cm := by
  have h1 : (match enc1.1 with | .ok cm => decide (cm.inner = msg1.message) | _ => false) = true := by decide +kernel
  cases h : enc1.1 with
  | err e => simp [h] at h1
  | panic => simp [h] at h1
  | ok cm =>
    rw [h] at h1
    exact ⟨cm, by simpa using h1, ⟨[], rfl⟩, congrArg Answer.encrypted h⟩

theorem bob_accepts : bobUser.Accepts [] [⟨.call (.decryptPreKey alice msg1), none⟩] alice msg1.message [104, 105] := by
  refine ⟨(opened dec1.1).2, .inr ⟨msg1, rfl, ⟨⟨_, rfl⟩, congrArg Answer.decrypted ?_⟩, rfl⟩⟩
  show dec1.1 = _
  decide +kernel

/-- C97 applies to Bob's acceptance: the session is the one the call itself set up with Alice's identity, the one-time prekey's Diffie-Hellman output is among those mixed, and (as Alice did
send the message) the attacker has seen its tag, so that the last conclusion is about something. -/
example : ∃ peer s0 dhs t0 mk k b, bobUser.Session [⟨.call (.decryptPreKey alice msg1), none⟩] alice peer s0 dhs t0 ∧ toyX ∈ dhs ∧ peer = aliceUser.me ∧
    Keyed bobEnv bobUser.me peer toyX s0 (t0 (· = toyX)) (.received msg1.message [104, 105] mk) k ∧ Covers protoSM peer bobUser.me msg1.message b ∧
    Attacker toyUsers toyX (.hash k.keys.mac (.pub b)) := by
  -- Bob's session
  have hp : ∃ id, processV3 bobEnv bobStore.preKeys bobStore.signedPreKeys Rec.new msg1 = (.ok id, (processV3 bobEnv bobStore.preKeys bobStore.signedPreKeys Rec.new msg1).2) := by
    have : (processV3 bobEnv bobStore.preKeys bobStore.signedPreKeys Rec.new msg1).1.isOk = true := by decide +kernel
    cases h : (processV3 bobEnv bobStore.preKeys bobStore.signedPreKeys Rec.new msg1).1 with
    | ok id => exact ⟨id, Prod.ext h rfl⟩
    | err e => rw [h] at this; simp [Res.isOk] at this
    | panic => rw [h] at this; simp [Res.isOk] at this
  obtain ⟨id, hp⟩ := hp
  have hset : SetUp bobEnv ⟨bobStore, 0⟩ alice (.decryptPreKey alice msg1) msg1.identityKey bobInit := .message (by decide +kernel) hp
  have hmix : Mixes bobEnv ⟨bobStore, 0⟩ (.decryptPreKey alice msg1) (responderDhs bobEnv msg1 signedPre.priv (some oneTime.priv))
      (fun U => responderStart bobEnv U msg1 signedPre.priv (some oneTime.priv)) := .message (by decide +kernel) (by decide +kernel)
  have hsym : SymHolds C.H bobInit (responderStart bobEnv (· = toyX) msg1 signedPre.priv (some oneTime.priv)) := by
    obtain ⟨dhs, t0, h1, h2⟩ := hset.mixes
    cases h1 with
    | @message a m spk ot g1 g2 =>
      have e1 : spk = signedPre := by
        have : bobStore.signedPreKeys msg1.struct.signedPreKeyId = some signedPre := by decide +kernel
        rw [show bobStore.signedPreKeys msg1.struct.signedPreKeyId = some spk from g1] at this
        exact Option.some.inj this
      have e2 : ot = some oneTime.priv := by rw [g2]; decide +kernel
      subst e1 e2
      exact h2 _
  have hd : decryptWithState bobEnv (bobEnv.rng 0) bobInit msg1.message = (.ok ([104, 105], (opened dec1.1).2), bobAfter, true) := by
    refine Prod.ext ?_ (Prod.ext rfl ?_)
    · show (decryptWithState bobEnv (bobEnv.rng 0) bobInit msg1.message).1 = _
      decide +kernel
    · show (decryptWithState bobEnv (bobEnv.rng 0) bobInit msg1.message).2.2 = _
      decide +kernel
  have hka : KeysAre C.H (opened dec1.1).2 (msg toyCk) := ⟨by decide +kernel, by decide +kernel, by decide +kernel⟩
  -- Alice's message
  obtain ⟨cm, hin, hsend⟩ := alice_sends
  obtain ⟨peer, s0, dhs, t0, hses, hall⟩ := C97_sent_is_secret toyUsers C protoSM toyUsers_society false _ bob [104, 105] cm hsend
  have hses' := hses
  obtain ⟨pre, c, dies, post, hds, -, hset', hmix'⟩ := hses
  have hpre : pre = [] ∧ c = .processBundle bob bundle := by
    cases pre with
    | nil => simp only [List.nil_append, List.cons.injEq, Deed.mk.injEq, Errand.call.injEq] at hds; exact ⟨rfl, hds.1.1.symm⟩
    | cons d l => simp at hds
  obtain ⟨rfl, rfl⟩ := hpre
  have hpeer : peer = bobUser.me := by
    cases hset' with
    | bundle => show bundle.identityKey = bobEnv.identity.pub; decide +kernel
  subst hpeer
  -- the first message of the session is sent with the chain key the set-up gave
  have hsym' : ∃ t0', (t0 (· = toyX)) = t0' ∧ t0'.send = toyCk ∧ SymHolds C.H s0 t0' := by
    obtain ⟨dhs2, t2, h1, h2⟩ := hset'.mixes
    cases hmix' with
    | @bundle a b spk rb rr g1 g2 g3 =>
      refine ⟨_, rfl, ?_, ?_⟩
      · have e1 : spk = signedPre.pub := by
          have : bundle.signedPreKeyPublic = some signedPre.pub := by decide +kernel
          rw [g1] at this; exact Option.some.inj this
        have e2 : clamp rb = toyBase := by rw [toyBase]; rw [show aliceEnv.rng 0 = some rb from g2]; rfl
        have e3 : clamp rr = toyRatchet := by rw [toyRatchet]; rw [show aliceEnv.rng 1 = some rr from g3]; rfl
        subst e1
        simp only [initiatorStart, toyD_eq, e2, e3]
        show chainOf (x3dhRoot ((initiatorDhs aliceEnv bundle signedPre.pub toyBase).map toyD)) (toyD (C.dh signedPre.pub toyRatchet).bytes) = _
        rw [toy_same.1, toy_same.2]; rfl
      · cases h1 with
        | @bundle a b spk' rb' rr' k1 k2 k3 =>
          rw [g1] at k1; rw [g2] at k2; rw [g3] at k3
          cases k1; cases k2; cases k3
          exact h2 _
  obtain ⟨t0', ht0, hck, hsym'⟩ := hsym'
  have hload : (((⟨emptyStore, 0⟩ : Node).deeds aliceEnv [⟨.call (.processBundle bob bundle), none⟩]).st.load bob) = .ok (recOf alice1 bob) := by
    show alice1.load bob = _
    have : (alice1.load bob).isOk = true := by decide +kernel
    unfold recOf
    cases h : alice1.load bob with
    | ok r => rfl
    | err e => rw [h] at this; simp [Res.isOk] at this
    | panic => rw [h] at this; simp [Res.isOk] at this
  have hs0 : s0 = aliceInit := by
    cases hset' with
    | @bundle b spk r pos' effs ht hs hv hb =>
      have e1 : spk = signedPre.pub := by
        have : bundle.signedPreKeyPublic = some signedPre.pub := by decide +kernel
        rw [hs] at this; exact Option.some.inj this
      subst e1
      have : (buildFromBundle aliceEnv 0 bob Rec.new bundle signedPre.pub).2.1.state = aliceInit := by decide +kernel
      rw [← this]
      have hb' : buildFromBundle aliceEnv 0 bob Rec.new bundle signedPre.pub = (.ok (), r, pos', effs) := hb
      rw [hb']
  subst hs0
  have he : encryptState aliceEnv aliceInit [104, 105] = (.ok cm, (encryptState aliceEnv aliceInit [104, 105]).2) := by
    obtain ⟨-, hans⟩ := hsend
    simp only [Store.call, Answer.encrypted.injEq] at hans
    obtain ⟨r, s', q1, q2, -⟩ := Store.encrypt_ok (Prod.ext hans rfl)
    have q1' : ((⟨emptyStore, 0⟩ : Node).deeds aliceEnv [⟨.call (.processBundle bob bundle), none⟩]).st.load bob = .ok r := q1
    rw [hload] at q1'
    cases q1'
    have q2' : encryptState aliceEnv aliceInit [104, 105] = (.ok cm, s') := q2
    rw [q2']
  have hbt : Between aliceInit aliceUser.me bobUser.me := ⟨by decide +kernel, by decide +kernel, by decide +kernel⟩
  obtain ⟨t', k, p1, p2, p3, -, p4⟩ := encrypt_tagged aliceEnv (.inl rfl) (· = toyX) aliceInit _ t0' [104, 105] cm hbt (by decide) hsym' he
  have hk : k.keys = msg toyCk := by rw [p4, hck]
  have hkey : Keyed aliceEnv aliceUser.me bobUser.me toyX aliceInit (t0 (· = toyX)) (.sent [104, 105] cm) k :=
    ⟨aliceInit, _, [], t0', [], t', .start, History.sent (evs := []) .start he, by rw [ht0]; exact .refl _, hsym', p1, p2, p3⟩
  obtain ⟨-, ck, rp, ct, b, k1, k2, k3, k4, k5, k6⟩ := p3
  have k5' := k5
  rw [hin] at k4 k5' k6
  rw [hk] at k6
  refine ⟨msg1.identityKey, bobInit, _, _, (opened dec1.1).2, ⟨some msg1.message.senderRatchetKey.bytes, msg toyCk⟩, b, ⟨[], _, none, [], rfl, by simp, hset, hmix⟩, ?_, ?_, ?_, ?_, ?_⟩
  · decide +kernel
  · show msg1.identityKey = aliceEnv.identity.pub; decide +kernel
  · refine ⟨bobInit, bobAfter, [], _, [], toyBobEnd, .start, History.received (evs := []) .start hd, .refl _, hsym, toy_bob_run, toy_bob_holds, hka, ct, b, k4, ?_, ?_, k6⟩
    · have h2 : decryptBody C (opened dec1.1).2 (msg1.message.struct.cipherText.getD []) = .ok [104, 105] := by decide +kernel
      rw [k4] at h2; exact h2
    · have : msg1.identityKey = aliceUser.me := by show msg1.identityKey = aliceEnv.identity.pub; decide +kernel
      rw [this]; exact k5'
  · have : msg1.identityKey = aliceUser.me := by show msg1.identityKey = aliceEnv.identity.pub; decide +kernel
    rw [this]; exact k5'
  · refine .given (.inr ⟨(msg toyCk).mac, b, ⟨false, ?_⟩, rfl⟩)
    exact ⟨_, bob, [104, 105], cm, bobUser.me, aliceInit, dhs, t0, k, hsend, hses', hkey, by rw [hk], k5⟩
end

end Verif
