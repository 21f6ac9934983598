import Verif.Proofs.SymAuth
import Verif.Props.Secrecy
import Verif.Props.Ratchet
import Verif.Props.Auth
/-
C85: what a session accepts was sent by the peer's session, against the attacker of Spec/Symbolic.lean.
-/
set_option linter.unusedSimpArgs false
namespace Verif
open Schedule Sym

/-- The bytes the tag of a message from `sender` to `receiver` authenticates (Spec/Mac.lean), for the serializer in use. -/
def Covers (S : Ser SMStruct) (sender receiver : Key32) (m : SignalMsg) (b : Bytes) : Prop :=
  ∃ rk ct, m.struct.ratchetKey = some rk ∧ m.struct.cipherText = some ct ∧
    ((S = protoSM ∧ b = Spec.macInput sender receiver rk ct m.struct.counter m.struct.previousCounter) ∨
     (S = jsonSM ∧ b = Spec.jsonMacInput sender receiver rk ct m.struct.counter m.struct.previousCounter))

/-- The tag in the message is (the first eight bytes of) the value of the term. -/
def TagIs (H : Bytes → Bytes → Bytes) (m : SignalMsg) (t : Term) : Prop := m.struct.mac.getD [] = (t.eval H).take 8

/-- How an event of `me`'s session with `peer` uses its message keys `u`: the message is encrypted with the cipher key and carries the tag, under
the MAC key, of both identities (the sender's first) and all its fields. -/
def Event.tagged (E : Env) (me peer : Key32) : Event → Use → Prop
  | .sent pt cm, u => u.chain = none ∧ ∃ (ck : ChainKey) (ratchet : Key32) (ct b : Bytes), KeysAre E.C.H (ck.msgKeys E.C) u.keys ∧ encryptBody E.C (ck.msgKeys E.C) pt = .ok ct ∧
      cm.inner.struct.ratchetKey = some (serPub ratchet) ∧ cm.inner.struct.cipherText = some ct ∧ Covers E.S me peer cm.inner b ∧ TagIs E.C.H cm.inner (.hash u.keys.mac (.pub b))
  | .received m pt k, u => KeysAre E.C.H k u.keys ∧ ∃ ct b, m.struct.cipherText = some ct ∧ decryptBody E.C k ct = .ok pt ∧
      Covers E.S peer me m b ∧ TagIs E.C.H m (.hash u.keys.mac (.pub b))

/-- The tags made in a history: those of the messages sent, with the symbolic MAC keys `us` they were made with. -/
def Issued (E : Env) (me peer : Key32) (evs : List Event) (us : List Use) (k : Term) (b : Bytes) : Prop :=
  ∃ pt cm u, (Event.sent pt cm, u) ∈ evs.zip us ∧ k = u.keys.mac ∧ Covers E.S me peer cm.inner b

/-- Slices fit in memory. -/
def Event.small : Event → Prop
  | .sent pt _ => pt.length < 2 ^ 63
  | .received m _ _ => (∀ b ∈ m.struct.ratchetKey, b.length < 2 ^ 64) ∧ ∀ b ∈ m.struct.cipherText, b.length < 2 ^ 64

/-- The same ratchet key, numbers and ciphertext. -/
def SameFields (m n : SignalMsg) : Prop :=
  m.struct.ratchetKey = n.struct.ratchetKey ∧ m.struct.counter = n.struct.counter ∧ m.struct.previousCounter = n.struct.previousCounter ∧
    m.struct.cipherText = n.struct.cipherText

/-- The session is one between `me` and `peer`, of protocol version 3. -/
structure Between (s : SState) (me peer : Key32) : Prop where
  loc : s.localIdentity = some me
  remote : s.remoteIdentity = some peer
  version : s.version = 3

theorem covers_ser {S : Ser SMStruct} (hS : StdSM S) (a b : Key32) (m : SignalMsg) {rk ct body : Bytes} (h1 : m.struct.ratchetKey = some rk)
    (h2 : m.struct.cipherText = some ct) (l1 : rk.length < 2 ^ 64) (l2 : ct.length < 2 ^ 64)
    (hser : S.ser ⟨some rk, m.struct.counter, m.struct.previousCounter, some ct, 0, none⟩ = .ok body) :
    Covers S a b m (serPub a ++ serPub b ++ (itoa 3 ++ body)) := by
  refine ⟨rk, ct, h1, h2, ?_⟩
  rcases hS with hp | hj
  · refine .inl ⟨hp, ?_⟩
    rw [hp] at hser
    simp only [protoSM, smSer, Res.ok.injEq] at hser
    rw [← macInput_eq a b rk ct _ _ l1 l2, ← hser]
    simp
  · refine .inr ⟨hj, ?_⟩
    rw [hj] at hser
    simp only [jsonSM, jsonSer, Res.ok.injEq] at hser
    rw [← jsonMacInput_eq a b rk ct, ← hser]

theorem covers_inj {S : Ser SMStruct} {a b a' b' : Key32} {m n : SignalMsg} {c : Bytes} (h : Covers S a b m c) (h' : Covers S a' b' n c)
    (hs : S = protoSM → (∀ b ∈ m.struct.ratchetKey, b.length < 2 ^ 64) ∧ (∀ b ∈ m.struct.cipherText, b.length < 2 ^ 64) ∧
      (∀ b ∈ n.struct.ratchetKey, b.length < 2 ^ 64) ∧ (∀ b ∈ n.struct.cipherText, b.length < 2 ^ 64)) :
    a = a' ∧ b = b' ∧ SameFields m n := by
  obtain ⟨rk, ct, h1, h2, h3⟩ := h
  obtain ⟨rk', ct', h1', h2', h3'⟩ := h'
  have hpj : ¬ protoSM = jsonSM := by
    intro e
    have : protoSM.ser ⟨none, 0, 0, none, 0, none⟩ = jsonSM.ser ⟨none, 0, 0, none, 0, none⟩ := by rw [e]
    exact absurd this (by decide)
  have fin : ∀ {p q : Key32}, (a = p ∧ b = q ∧ rk = rk' ∧ ct = ct' ∧ m.struct.counter = n.struct.counter ∧ m.struct.previousCounter = n.struct.previousCounter) →
      a = p ∧ b = q ∧ SameFields m n := by
    rintro p q ⟨e1, e2, e3, e4, e5, e6⟩
    exact ⟨e1, e2, by rw [h1, h1', e3], e5, e6, by rw [h2, h2', e4]⟩
  rcases h3 with ⟨hp, e⟩ | ⟨hp, e⟩
  · rcases h3' with ⟨hp', e'⟩ | ⟨hp', e'⟩
    · obtain ⟨l1, l2, l3, l4⟩ := hs hp
      exact fin (C10_mac_input_injective _ _ _ _ _ _ _ _ _ _ _ _ (l1 _ h1) (l2 _ h2) (l3 _ h1') (l4 _ h2') (e.symm.trans e'))
    · exact absurd (hp.symm.trans hp') hpj
  · rcases h3' with ⟨hp', e'⟩ | ⟨hp', e'⟩
    · exact absurd (hp'.symm.trans hp) hpj
    · exact fin (C10_json_mac_input_injective _ _ _ _ _ _ _ _ _ _ _ _ (e.symm.trans e'))

theorem encrypt_tagged (E : Env) (hS : StdSM E.S) (U : Bytes → Prop) (s s' : SState) (t : State) (pt : Bytes) (cm : CipherMsg) {me peer : Key32}
    (hb : Between s me peer) (hpt : pt.length < 2 ^ 63) (hs : SymHolds E.C.H s t) (h : encryptState E s pt = (.ok cm, s')) :
    ∃ t' u, Run U t t' [u] ∧ SymHolds E.C.H s' t' ∧ (Event.sent pt cm).tagged E me peer u ∧ Between s' me peer ∧ u.keys = msg t.send := by
  obtain ⟨sc, body, hsc, hbody, hm, rfl, -, -, -, hct, -, -⟩ := encryptState_inner hS (s := s) hb.version hpt h
  obtain ⟨root, send, recv⟩ := t
  obtain ⟨sc', hsc', hck, hmk⟩ := hs.send
  rw [hsc] at hsc'; cases hsc'
  have hka := keysAre_msg E.C hck
  rw [hb.loc, hb.remote, hb.version] at hm
  obtain ⟨sb, mac, hser, hmac, -, -, hin⟩ := newSignalMessage_ok hm
  obtain ⟨body', hb', hlen⟩ := encryptBody_ok E.C sc.chainKey pt
  rw [hbody] at hb'; cases hb'
  have hrk : cm.inner.struct.ratchetKey = some (serPub sc.pair.pub) := by rw [hin]
  have hctr : cm.inner.struct.counter = sc.chainKey.index := by rw [hin]
  have hpc : cm.inner.struct.previousCounter = s.previousCounter := by rw [hin]
  have hcov : Covers E.S me peer cm.inner (serPub me ++ serPub peer ++ (itoa 3 ++ sb)) :=
    covers_ser hS me peer cm.inner hrk hct (by simp [serPub, Arr.len]) (by omega) (by rw [hctr, hpc]; exact hser)
  refine ⟨_, _, Run.single (Step.send (U := U) root send recv), ⟨hs.root, ⟨_, rfl, next_eval E.C hck, hmk⟩, hs.recv⟩,
    ⟨rfl, sc.chainKey, sc.pair.pub, body, _, hka, hbody, hrk, hct, hcov, ?_⟩, ⟨hb.loc, hb.remote, hb.version⟩, rfl⟩
  have hmac' : mac = (E.C.H ((sc.chainKey.msgKeys E.C).macKey) (serPub me ++ serPub peer ++ (itoa 3 ++ sb))).take 8 := by
    simp only [getMac, trim, Arr.len, macLength] at hmac
    rw [if_pos (by decide), if_neg (by decide)] at hmac
    simp only [Res.ok.injEq] at hmac
    rw [← hmac]
  show cm.inner.struct.mac.getD [] = _
  rw [hin]
  simp only [Option.getD_some, hmac', Term.eval, hka.mac]

theorem decrypt_tagged (E : Env) (hS : StdSM E.S) (U : Bytes → Prop) (s s' : SState) (t : State) (draw : Option Key32) (m : SignalMsg)
    (res : Res (Bytes × MsgKeys)) (d : Bool) {me peer : Key32} (hb : Between s me peer) (hs : SymHolds E.C.H s t)
    (h : decryptWithState E draw s m = (res, s', d)) :
    ∃ t' es, Run U t t' es ∧ SymHolds E.C.H s' t' ∧ Between s' me peer ∧
      (∀ pt mk, res = .ok (pt, mk) → (Event.received m pt mk).small → ∃ u, es = [u] ∧ (Event.received m pt mk).tagged E me peer u) := by
  obtain ⟨t', es, h1, h2, h3⟩ := decrypt_run E U s s' t draw m res d hs h
  have hk := decryptWithState_kept E draw s m
  rw [h] at hk
  refine ⟨t', es, h1, h2, ⟨hk.loc.trans hb.loc, hk.remote.trans hb.remote, hk.version.trans hb.version⟩, ?_⟩
  rintro pt mk rfl hsm
  obtain ⟨k, rfl, hka⟩ := h3 pt mk rfl
  refine ⟨_, rfl, hka, ?_⟩
  have hver := C10_version_must_match E draw s m _ _ _ h
  rw [hb.version] at hver
  have hopen : openWith E s.remoteIdentity s.localIdentity m mk = .ok (pt, mk) := by
    rcases decryptWithState_cases E draw s m with ⟨res, d', he, hno, -⟩ | ⟨s1, c, d', hc, -, -, -, he⟩
    · rw [he] at h; cases h; simp [Res.isOk] at hno
    · rw [he] at h
      cases hr : c.recv E.C m.struct.counter with
      | mk res c' =>
        rw [hr] at h
        cases res with
        | err e => simp at h
        | panic => simp at h
        | ok mk' =>
          simp only [Prod.mk.injEq] at h
          have : mk = mk' := openWith_key h.1
          rw [this]; rw [this] at h; exact h.1
  unfold openWith at hopen
  cases hm : m.verifyMac E.C E.S m.struct.version s.remoteIdentity s.localIdentity mk.macKey with
  | err e => simp [hm] at hopen
  | panic => simp [hm] at hopen
  | ok u =>
    simp only [hm, Res.bind_ok] at hopen
    rw [hver] at hm
    obtain ⟨rem, loc, rk, ct, body, g1, g2, g3, g4, g6, g5⟩ := verifyMac_any rfl hver hm
    rw [hb.remote] at g1; rw [hb.loc] at g2
    cases g1; cases g2
    rw [g4] at hopen
    cases hd : decryptBody E.C mk ct with
    | err e => simp [hd] at hopen
    | panic => simp [hd] at hopen
    | ok pt' =>
      simp only [Option.getD_some, hd, Res.map_ok, Res.ok.injEq, Prod.mk.injEq, and_true] at hopen
      subst hopen
      refine ⟨ct, _, g4, hd, covers_ser hS peer me m g3 g4 (hsm.1 _ g3) (hsm.2 _ g4) g6, ?_⟩
      rw [TagIs, g5, Term.eval, ← hka.mac]
      rfl

/-- Every history is a run of the symbolic double ratchet, with tags as they are on the wire. -/
theorem history_tagged {E : Env} (hS : StdSM E.S) {s0 s : SState} {evs : List Event} (h : History E s0 s evs) (U : Bytes → Prop) (t0 : State)
    (h0 : SymHolds E.C.H s0 t0) {me peer : Key32} (hb : Between s0 me peer) (hsm : ∀ e ∈ evs, e.small) :
    ∃ t es us, Run U t0 t es ∧ SymHolds E.C.H s t ∧ Between s me peer ∧ us.Sublist es ∧ List.Forall₂ (Event.tagged E me peer) evs us := by
  induction h with
  | start => exact ⟨t0, [], [], .refl _, h0, hb, .slnil, .nil⟩
  | sent _ he ih =>
    obtain ⟨t, es, us, h1, h2, h5, h3, h4⟩ := ih fun e he => hsm e (by simp [he])
    have hsmall := hsm _ (List.mem_append_right _ List.mem_cons_self)
    obtain ⟨t', u, g1, g2, g3, g4, -⟩ := encrypt_tagged E hS U _ _ t _ _ h5 hsmall h2 he
    exact ⟨t', _, us ++ [u], h1.trans g1, g2, g4, h3.append (.refl _), forall₂_append h4 (.cons g3 .nil)⟩
  | received _ hd ih =>
    obtain ⟨t, es, us, h1, h2, h5, h3, h4⟩ := ih fun e he => hsm e (by simp [he])
    obtain ⟨t', es', g1, g2, g4, g3⟩ := decrypt_tagged E hS U _ _ t _ _ _ _ h5 h2 hd
    obtain ⟨u, rfl, hk⟩ := g3 _ _ rfl (hsm _ (by simp))
    exact ⟨t', _, us ++ [u], h1.trans g1, g2, g4, h3.append (.refl _), forall₂_append h4 (.cons hk .nil)⟩
  | failed _ hd _ ih =>
    obtain ⟨t, es, us, h1, h2, h5, h3, h4⟩ := ih hsm
    obtain ⟨t', es', g1, g2, g4, -⟩ := decrypt_tagged E hS U _ _ t _ _ _ _ h5 h2 hd
    refine ⟨t', _, us, h1.trans g1, g2, g4, ?_, h4⟩
    have := h3.append (List.nil_sublist es')
    simpa using this

theorem forall₂_zip {α β : Type} {R : α → β → Prop} {l : List α} {m : List β} (h : List.Forall₂ R l m) : ∀ p ∈ l.zip m, R p.1 p.2 := by
  induction h with
  | nil => simp
  | cons ha _ ih =>
    intro p hp
    simp only [List.zip_cons_cons, List.mem_cons] at hp
    rcases hp with rfl | hp
    · exact ha
    · exact ih p hp

/-- What is proved of a session: `S` are the tags both users made.  The attacker, who knows everything that does not contain the secret `a` and has seen
these tags, knows none of the session's keys; and the tag of a message that was accepted is one he can make only if the peer sent the same fields with the
same plaintext. -/
def Authentic (a : Term) (S : Term → Bytes → Prop) (E : Env) (me peer : Key32) (t : State) (evs : List Event) (us : List Use) (peerEvs : List Event) : Prop :=
  (∀ y ∈ t.secrets, ¬ Sym.Knows (Seen a S) y) ∧
  (∀ u ∈ us, ∀ y ∈ [u.keys.cipher, u.keys.mac, u.keys.iv], ¬ Sym.Knows (Seen a S) y) ∧
  ∀ m pt k u b, (Event.received m pt k, u) ∈ evs.zip us → Covers E.S peer me m b → Sym.Knows (Seen a S) (.hash u.keys.mac (.pub b)) →
    ∃ cm, Event.sent pt cm ∈ peerEvs ∧ SameFields m cm.inner

/-- The core: any session whose secrets contain `a`. -/
theorem authentic_core (E F : Env) (hC : F.C = E.C) (hF : F.S = E.S) (hA : E.C.AesLaw) (x : Bytes) {me peer : Key32} (hne : me ≠ peer)
    {t0 t : State} {es us : List Use} {evs : List Event} (hk : Kempt t0) (hg : Guarded (.atom [] x) (fun _ => False) t0) (hr : Run (· = x) t0 t es)
    (hu : us.Sublist es) (hev : List.Forall₂ (Event.tagged E me peer) evs us) (hsm : ∀ e ∈ evs, e.small)
    {V : Bytes → Prop} {p0 p : State} {ep up : List Use} {pevs : List Event} (hpr : Run V p0 p ep)
    (hup : up.Sublist ep) (hpev : List.Forall₂ (Event.tagged F peer me) pevs up) (hpsm : ∀ e ∈ pevs, e.small) :
    Authentic (.atom [] x) (fun k b => Issued E me peer evs us k b ∨ Issued F peer me pevs up k b) E me peer t evs us pevs := by
  have hS1 : ∀ k c, (Issued E me peer evs us k c ∨ Issued F peer me pevs up k c) → IsMac k := by
    rintro k c (⟨pt, cm, u, hz, rfl, -⟩ | ⟨pt, cm, u, hz, rfl, -⟩)
    · have := forall₂_zip hev _ hz
      obtain ⟨ck, e⟩ := run_sent hr u (hu.subset (List.of_mem_zip hz).2) this.1
      exact ⟨ck, by rw [e]⟩
    · have := forall₂_zip hpev _ hz
      obtain ⟨ck, e⟩ := run_sent hpr u (hup.subset (List.of_mem_zip hz).2) this.1
      exact ⟨ck, by rw [e]⟩
  obtain ⟨hk1, hk2⟩ := run_kempt hr hk
  obtain ⟨hg1, hg2⟩ := run_guarded hr hg
  have hkeys : ∀ u ∈ us, ∀ y ∈ [u.keys.cipher, u.keys.mac, u.keys.iv], NoSeal y ∧ y.mentions (.atom [] x) := by
    intro u huu y hy
    obtain ⟨ck, h1, h2, h3⟩ := hk2 u (hu.subset huu)
    refine ⟨?_, hg2 u (hu.subset huu) (fun _ _ => not_false) y hy⟩
    obtain ⟨n1, n2, n3⟩ := noSeal_msg h1 h2
    rw [h3] at hy
    simp only [List.mem_cons, List.not_mem_nil, or_false] at hy
    rcases hy with rfl | rfl | rfl
    · exact n1
    · exact n2
    · exact n3
  refine ⟨fun y hy => not_seen ⟨_, _, rfl⟩ hS1 ?_ (hg1.all hy), fun u huu y hy => not_seen ⟨_, _, rfl⟩ hS1 (hkeys u huu y hy).1 (hkeys u huu y hy).2, ?_⟩
  · simp only [State.secrets, List.mem_cons, List.mem_flatMap, ChainTerms.list] at hy
    rcases hy with rfl | rfl | ⟨c, hc, rfl | ⟨k, hkk, hy⟩⟩
    · exact hk1.root.1
    · exact hk1.send.1
    · exact (hk1.recv c hc).1.1
    · obtain ⟨ck, h1, h2, rfl⟩ := (hk1.recv c hc).2 k hkk
      obtain ⟨n1, n2, n3⟩ := noSeal_msg h1 h2
      simp only [MsgTerms.list, List.mem_cons, List.not_mem_nil, or_false] at hy
      rcases hy with rfl | rfl | rfl
      · exact n1
      · exact n2
      · exact n3
  · intro m pt k u b hz hcov hknow
    have huu := (List.of_mem_zip hz).2
    obtain ⟨hka, ct, b', hct, hdec, hcov', -⟩ := forall₂_zip hev _ hz
    have hs1 := hsm _ (List.of_mem_zip hz).1
    have hmac := hkeys u huu u.keys.mac (by simp)
    have bounds : ∀ (G : Env) (a c : Key32) (pt : Bytes) (cm : CipherMsg) (u : Use), pt.length < 2 ^ 63 → (Event.sent pt cm).tagged G a c u →
        (∀ b ∈ cm.inner.struct.ratchetKey, b.length < 2 ^ 64) ∧ ∀ b ∈ cm.inner.struct.cipherText, b.length < 2 ^ 64 := by
      rintro G a c pt cm u hl ⟨-, ck, rp, ct, -, -, hb, hrk, hct, -⟩
      obtain ⟨body', hb', hlen⟩ := encryptBody_ok G.C ck pt
      rw [hb] at hb'; cases hb'
      rw [hrk, hct]
      constructor <;> intro y hy <;> cases hy
      · simp [serPub, Arr.len]
      · omega
    rcases no_forgery ⟨_, _, rfl⟩ hS1 hmac.1 hmac.2 hknow with ⟨pt', cm, u', hz', hkey, hcovs⟩ | ⟨pt', cm, u', hz', hkey, hcovs⟩
    · -- our own message sent back to us: the identities are the wrong way round
      have ht := forall₂_zip hev _ hz'
      have hb := bounds E me peer pt' cm u' (hsm _ (List.of_mem_zip hz').1) ht
      exact absurd (covers_inj hcov hcovs fun _ => ⟨hs1.1, hs1.2, hb.1, hb.2⟩).1.symm hne
    · have ht := forall₂_zip hpev _ hz'
      have hb := bounds F peer me pt' cm u' (hpsm _ (List.of_mem_zip hz').1) ht
      rw [hF] at hcovs
      have hsame := (covers_inj hcov hcovs fun _ => ⟨hs1.1, hs1.2, hb.1, hb.2⟩).2.2
      obtain ⟨hnone, ck, rp, ct', b'', hka', henc, hrk', hct', -⟩ := ht
      have hctt : ct' = ct := by
        have := hsame.2.2.2
        rw [hct, hct'] at this
        exact (Option.some.inj this).symm
      subst hctt
      -- the same MAC key comes from the same chain position, so all keys are the same
      obtain ⟨c1, -, -, e1⟩ := hk2 u (hu.subset huu)
      obtain ⟨c2, e2⟩ := run_sent hpr u' (hup.subset (List.of_mem_zip hz').2) hnone
      have hcc : u.keys = u'.keys := by
        rw [e1, e2] at hkey ⊢
        rw [msg_inj hkey]
      rw [hC] at henc hka'
      have hdec' := decryptBody_encryptBody E.C hA ck pt' ct' henc
      rw [← hcc] at hka'
      have : decryptBody E.C k ct' = decryptBody E.C (ck.msgKeys E.C) ct' := by
        unfold decryptBody
        rw [hka.iv, hka.cipher, ← hka'.iv, ← hka'.cipher]
      rw [hdec, hdec'] at this
      cases this
      exact ⟨cm, (List.of_mem_zip hz').1, hsame⟩

/-- The keys a session used in the run that its history is, and how its messages carry their tags. -/
def Traced (E : Env) (me peer : Key32) (t0 t : State) (s : SState) (evs : List Event) (es us : List Use) (x : Bytes) : Prop :=
  Run (· = x) t0 t es ∧ SymHolds E.C.H s t ∧ us.Sublist es ∧ List.Forall₂ (Event.tagged E me peer) evs us

/-- **C85.** Bob accepted Alice's first message and Alice had processed Bob's bundle; both then did whatever they did with these sessions, with an attacker
in between.  If there is a Diffie-Hellman output of Bob's key agreement that the attacker does not know, then no key of the session is among what he can
compute from all the rest and from all tags Alice and Bob put on their messages, and a message Bob accepted that carries a tag the attacker can
compute carries the ratchet key, numbers and ciphertext of a message Alice sent, and Bob got the plaintext that Alice put in.  The same for Alice.
(Both histories are runs of the symbolic ratchet; the rest holds for all such runs.) -/
theorem C85_accepted_was_sent (E F : Env) (hC : F.C = E.C) (hF : F.S = E.S) (hS : StdSM E.S) (hA : E.C.AesLaw)
    (st st' : Store) (pos pos' : Nat) (a : Addr) (m : PreKeyMsg) (x0 : Bytes × MsgKeys)
    (hnew : st.sessions a = none) (h : st.decryptPreKey E pos a m = (.ok x0, st', pos'))
    (ft ft' : Store) (fpos fpos' : Nat) (fa : Addr) (b : Bundle) (hb : ft.processBundle F fpos fa b = (.ok (), ft', fpos'))
    (hbob : b.identityKey = E.identity.pub) (halice : m.identityKey = F.identity.pub) (hne : E.identity.pub ≠ F.identity.pub) :
    ∃ (r : Rec) (s0 : SState) (bspk : IdKeyPair) (oneTime : Option Key32) (fr : Rec) (spk rb rr : Key32),
      (st'.load a = .ok r ∧ st.signedPreKeys m.struct.signedPreKeyId = some bspk ∧ oneTime = m.struct.preKeyId.bind (fun o => (st.preKeys o.value).map (·.priv)) ∧
        History E s0 r.state [.received m.message x0.1 x0.2]) ∧
      (ft'.load fa = .ok fr ∧ b.signedPreKeyPublic = some spk ∧ F.rng fpos = some rb ∧ F.rng (fpos + 1) = some rr) ∧
      ∀ (x : Bytes) (s : SState) (evs : List Event) (f : SState) (fevs : List Event), History E s0 s evs → History F fr.state f fevs →
        (∀ e ∈ evs, e.small) → (∀ e ∈ fevs, e.small) →
        (∃ t es us, Traced E E.identity.pub F.identity.pub (responderStart E (· = x) m bspk.priv oneTime) t s evs es us x) ∧
        (∃ t es us, Traced F F.identity.pub E.identity.pub (initiatorStart F (· = x) b spk (clamp rb) (clamp rr)) t f fevs es us x) ∧
        ∀ t es us ft fes fus,
          Traced E E.identity.pub F.identity.pub (responderStart E (· = x) m bspk.priv oneTime) t s evs es us x →
          Traced F F.identity.pub E.identity.pub (initiatorStart F (· = x) b spk (clamp rb) (clamp rr)) ft f fevs fes fus x →
          (x ∈ responderDhs E m bspk.priv oneTime →
            Authentic (.atom [] x) (fun k c => Issued E E.identity.pub F.identity.pub evs us k c ∨ Issued F F.identity.pub E.identity.pub fevs fus k c)
              E E.identity.pub F.identity.pub t evs us fevs) ∧
          (x ∈ initiatorDhs F b spk (clamp rb) →
            Authentic (.atom [] x) (fun k c => Issued F F.identity.pub E.identity.pub fevs fus k c ∨ Issued E E.identity.pub F.identity.pub evs us k c)
              F F.identity.pub E.identity.pub ft fevs fus evs) := by
  obtain ⟨r, s0, bspk, ot, h1, h2, h3, h4, h5, h6, h7, hh⟩ := responder_start E st st' pos pos' a m x0 hnew h
  obtain ⟨fr, spk, rb, rr, g1, g2, g3, g4, g5, g6, g7, gg⟩ := initiator_start F ft ft' fpos fpos' fa b hb
  refine ⟨r, s0, bspk, ot, fr, spk, rb, rr, ⟨h1, h2, h3, h4⟩, ⟨g1, g2, g3, g4⟩, ?_⟩
  intro x s evs f fevs hist fhist hsm fsm
  rw [halice] at h6
  rw [hbob] at g6
  refine ⟨?_, ?_, ?_⟩
  · obtain ⟨t, es, us, q1, q2, -, q3, q4⟩ := history_tagged hS hist (· = x) _ (hh _) ⟨h5, h6, h7⟩ hsm
    exact ⟨t, es, us, q1, q2, q3, q4⟩
  · obtain ⟨ft, fes, fus, p1, p2, -, p3, p4⟩ := history_tagged (by rw [hF]; exact hS) fhist (· = x) _ (gg _) ⟨g5, g6, g7⟩ fsm
    exact ⟨ft, fes, fus, p1, p2, p3, p4⟩
  rintro t es us ft fes fus ⟨q1, -, q3, q4⟩ ⟨p1, -, p3, p4⟩
  refine ⟨fun hx => ?_, fun hx => ?_⟩
  · exact authentic_core E F hC hF hA x hne (kempt_responder _ _) (responderStart_guarded E m _ _ x hx) q1 q3 q4 hsm p1 p3 p4 fsm
  · exact authentic_core F E hC.symm hF.symm (by rw [hC]; exact hA) x hne.symm (kempt_initiator _ _ _ _) (initiatorStart_guarded F b _ _ _ x hx) p1 p3 p4 fsm
      q1 q3 q4 hsm

theorem dhTerm_if (x v : Bytes) : dhTerm (· = x) v = if v = x then .atom [] v else .pub v := by
  by_cases h : v = x
  · rw [if_pos h]; exact dhTerm_unknown (U := (· = x)) h
  · rw [if_neg h]; unfold dhTerm; rw [if_neg h]

section
open Toy
set_option maxRecDepth 100000

/-- The secret of the example: the Diffie-Hellman output of Alice's base key and Bob's one-time prekey. -/
def toyX : Bytes := (C.dh msg1.baseKey oneTime.priv).bytes
def toyBase : Key32 := clamp ((aliceEnv.rng 0).getD (key 0))
def toyRatchet : Key32 := clamp ((aliceEnv.rng 1).getD (key 0))

/-- C85's hypotheses: Bob accepts Alice's first message. -/
example : (emptyStore.processBundle aliceEnv 0 bob bundle).1 = .ok () ∧ bobStore.sessions alice = none ∧ dec1.1.isOk = true ∧
    bundle.identityKey = bobEnv.identity.pub ∧ msg1.identityKey = aliceEnv.identity.pub ∧ bobEnv.identity.pub ≠ aliceEnv.identity.pub ∧
    toyX ∈ responderDhs bobEnv msg1 signedPre.priv (some oneTime.priv) ∧ toyX ∈ initiatorDhs aliceEnv bundle signedPre.pub toyBase := by
  refine ⟨by decide +kernel, rfl, by decide +kernel, by decide +kernel, by decide +kernel, by decide +kernel, by decide +kernel, ?_⟩
  decide +kernel

def toyD (v : Bytes) : Term := if v = toyX then .atom [] v else .pub v
theorem toyD_eq : dhTerm (· = toyX) = toyD := by funext v; rw [toyD, dhTerm_if]
def toyDs : List Term := (responderDhs bobEnv msg1 signedPre.priv (some oneTime.priv)).map toyD
/-- The chain key Bob and Alice agree on: from X3DH and the Diffie-Hellman output of Alice's ratchet key and Bob's signed prekey. -/
def toyCk : Term := chainOf (x3dhRoot toyDs) (toyD (C.dh msg1.message.senderRatchetKey signedPre.priv).bytes)
def toyD2 : Term := toyD (C.dh msg1.message.senderRatchetKey (clamp ((bobEnv.rng 0).getD (key 0)))).bytes
def toyRoot : Term := rootOf (x3dhRoot toyDs) (toyD (C.dh msg1.message.senderRatchetKey signedPre.priv).bytes)
def toyBobEnd : State := ⟨rootOf toyRoot toyD2, chainOf toyRoot toyD2, [⟨msg1.message.senderRatchetKey.bytes, next toyCk, []⟩]⟩

theorem toy_same : initiatorDhs aliceEnv bundle signedPre.pub toyBase = responderDhs bobEnv msg1 signedPre.priv (some oneTime.priv) ∧
    (C.dh signedPre.pub toyRatchet).bytes = (C.dh msg1.message.senderRatchetKey signedPre.priv).bytes := by decide +kernel

theorem toy_bob_run : Run (· = toyX) (responderStart bobEnv (· = toyX) msg1 signedPre.priv (some oneTime.priv)) toyBobEnd
    [⟨some msg1.message.senderRatchetKey.bytes, msg toyCk⟩] := by
  have h1 := Step.ratchet (U := (· = toyX)) (x3dhRoot toyDs) (x3dhChain toyDs) [] msg1.message.senderRatchetKey.bytes
    (C.dh msg1.message.senderRatchetKey signedPre.priv).bytes (C.dh msg1.message.senderRatchetKey (clamp ((bobEnv.rng 0).getD (key 0)))).bytes
  rw [toyD_eq] at h1
  have h2 := Step.receive (U := (· = toyX)) (rootOf toyRoot toyD2) (chainOf toyRoot toyD2) [] [] msg1.message.senderRatchetKey.bytes toyCk []
  have := (Run.single h1).trans (Run.single h2)
  unfold responderStart
  rw [toyD_eq]
  exact this

theorem toy_bob_holds : SymHolds C.H bobAfter toyBobEnd := by
  refine ⟨by decide +kernel, ⟨bobAfter.senderChain.getD ⟨⟨key 0, none⟩, ⟨[], 0⟩, []⟩, by decide +kernel, by decide +kernel, by decide +kernel⟩, ?_⟩
  have : bobAfter.receiverChains = [⟨⟨msg1.message.senderRatchetKey, none⟩, ⟨(next toyCk).eval C.H, 1⟩, []⟩] := by decide +kernel
  rw [this]
  exact .cons ⟨rfl, rfl, .nil⟩ .nil

/-- C85's conclusion is about something: in the toy session, with runs in which Alice and Bob derive the same keys, Bob received Alice's message with a tag
the attacker has seen. -/
example : ∃ (pt : Bytes) (cm : CipherMsg) (k : MsgKeys) (f : SState) (t : State) (u : Use) (b : Bytes),
    History bobEnv bobInit bobAfter [.received msg1.message pt k] ∧ History aliceEnv aliceInit f [.sent pt cm] ∧ cm.inner = msg1.message ∧
    Traced bobEnv bobEnv.identity.pub aliceEnv.identity.pub (responderStart bobEnv (· = toyX) msg1 signedPre.priv (some oneTime.priv)) toyBobEnd bobAfter
      [.received msg1.message pt k] [⟨some msg1.message.senderRatchetKey.bytes, msg toyCk⟩] [⟨some msg1.message.senderRatchetKey.bytes, msg toyCk⟩] toyX ∧
    Traced aliceEnv aliceEnv.identity.pub bobEnv.identity.pub (initiatorStart aliceEnv (· = toyX) bundle signedPre.pub toyBase toyRatchet) t f
      [.sent pt cm] [u] [u] toyX ∧
    Covers protoSM aliceEnv.identity.pub bobEnv.identity.pub msg1.message b ∧
    Sym.Knows (Seen (.atom [] toyX) fun mk c => Issued bobEnv bobEnv.identity.pub aliceEnv.identity.pub [.received msg1.message pt k]
      [⟨some msg1.message.senderRatchetKey.bytes, msg toyCk⟩] mk c ∨ Issued aliceEnv aliceEnv.identity.pub bobEnv.identity.pub [.sent pt cm] [u] mk c)
      (.hash (msg toyCk).mac (.pub b)) := by
  have hA : ∃ r spk rb rr, alice1.load bob = .ok r ∧ bundle.signedPreKeyPublic = some spk ∧ aliceEnv.rng 0 = some rb ∧ aliceEnv.rng (0 + 1) = some rr ∧
      r.state.localIdentity = some aliceEnv.identity.pub ∧ r.state.remoteIdentity = some bundle.identityKey ∧ r.state.version = 3 ∧
      ∀ U, SymHolds aliceEnv.C.H r.state (initiatorStart aliceEnv U bundle spk (clamp rb) (clamp rr)) :=
    initiator_start aliceEnv emptyStore alice1 0 _ bob bundle (Prod.ext (show (emptyStore.processBundle aliceEnv 0 bob bundle).1 = .ok () by decide +kernel) rfl)
  obtain ⟨r, spk, rb, rr, a1, a2, a3, a4, a5, a6, a7, a8⟩ := hA
  have hst : aliceInit = r.state := by unfold aliceInit stateOf recOf; rw [a1]
  cases a2
  have hrb : clamp rb = toyBase := by rw [toyBase, a3]; rfl
  have hrr : clamp rr = toyRatchet := by rw [toyRatchet, show aliceEnv.rng 1 = some rr from a4]; rfl
  rw [hrb, hrr, ← hst] at a8
  rw [← hst] at a5 a6 a7
  have hba : Between aliceInit aliceEnv.identity.pub bobEnv.identity.pub := ⟨a5, a6, a7⟩
  have he : ∃ cm, (encryptState aliceEnv aliceInit [104, 105]).1 = .ok cm ∧ cm.inner = msg1.message := by
    have h1 : (match (encryptState aliceEnv aliceInit [104, 105]).1 with | .ok cm => decide (cm.inner = msg1.message) | _ => false) = true := by decide +kernel
    cases h : (encryptState aliceEnv aliceInit [104, 105]).1 <;> simp [h] at h1 ⊢
    exact h1
  obtain ⟨cm, he, hin⟩ := he
  obtain ⟨t, u, g1, g2, g3, -, g4⟩ := encrypt_tagged aliceEnv (.inl rfl) (· = toyX) aliceInit _ _ [104, 105] cm hba (by decide) (a8 (· = toyX)) (Prod.ext he rfl)
  have hu : u.keys = msg toyCk := by
    rw [g4]; congr 1
    simp only [initiatorStart, toyD_eq]
    rw [toy_same.1]
    show chainOf _ (toyD (C.dh signedPre.pub toyRatchet).bytes) = _
    rw [toy_same.2]; rfl
  have hd : decryptWithState bobEnv (bobEnv.rng 0) bobInit msg1.message = (.ok ([104, 105], (opened dec1.1).2), bobAfter, true) := by
    refine Prod.ext ?_ (Prod.ext rfl ?_)
    · show (decryptWithState bobEnv (bobEnv.rng 0) bobInit msg1.message).1 = _
      decide +kernel
    · show (decryptWithState bobEnv (bobEnv.rng 0) bobInit msg1.message).2.2 = _
      decide +kernel
  have hbb : Between bobInit bobEnv.identity.pub aliceEnv.identity.pub := ⟨by decide +kernel, by decide +kernel, by decide +kernel⟩
  have hh : History bobEnv bobInit bobAfter [.received msg1.message [104, 105] (opened dec1.1).2] := History.received (evs := []) .start hd
  have hka : KeysAre C.H (opened dec1.1).2 (msg toyCk) := ⟨by decide +kernel, by decide +kernel, by decide +kernel⟩
  obtain ⟨hnone, ck, rp, ct, b, k1, k2, k3, k4, k5, k6⟩ := g3
  rw [hin] at k3 k4 k5 k6
  rw [hu] at k6
  refine ⟨[104, 105], cm, (opened dec1.1).2, _, t, u, b, hh, History.sent (evs := []) .start (Prod.ext he rfl), hin, ?_, ?_, k5, ?_⟩
  · refine ⟨toy_bob_run, toy_bob_holds, .refl _, .cons ⟨hka, ct, b, k4, ?_, k5, k6⟩ .nil⟩
    have : ∀ ct, msg1.message.struct.cipherText = some ct → decryptBody C (opened dec1.1).2 ct = .ok [104, 105] := by
      intro ct hct
      have h2 : decryptBody C (opened dec1.1).2 (msg1.message.struct.cipherText.getD []) = .ok [104, 105] := by decide +kernel
      rw [hct] at h2; exact h2
    exact this ct k4
  · exact ⟨g1, g2, .refl _, .cons ⟨hnone, ck, rp, ct, b, k1, k2, by rw [hin]; exact k3, by rw [hin]; exact k4, by rw [hin]; exact k5, by rw [hin, hu]; exact k6⟩ .nil⟩
  · refine .given (.inr ⟨(msg toyCk).mac, b, .inr ⟨[104, 105], cm, u, by simp, by rw [hu], by rw [hin]; exact k5⟩, rfl⟩)
end

end Verif
