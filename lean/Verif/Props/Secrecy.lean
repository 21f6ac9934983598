import Verif.Proofs.SymLink
import Verif.Props.Setup
import Verif.Props.Archive
/-
C64: forward secrecy.  C65: post-compromise security.  C66: secrecy of a session.  The attacker is the symbolic one of Spec/Symbolic.lean.
-/
set_option linter.unusedSimpArgs false
namespace Verif
open Schedule Sym

/-! ### Histories of one session -/

/-- What an application sees: a message was encrypted, or one was decrypted (with the message keys `DecryptAndGetKey` returns). -/
inductive Event where
  | sent (plaintext : Bytes) (message : CipherMsg)
  | received (message : SignalMsg) (plaintext : Bytes) (keys : MsgKeys)

/-- All that can happen to a session state: any number of calls in any order, with any plaintexts, any (also forged or replayed) messages and
any random bytes.  A failed decryption leaves no event but may have changed the state. -/
inductive History (E : Env) (s0 : SState) : SState → List Event → Prop
  | start : History E s0 s0 []
  | sent {s s' evs pt cm} : History E s0 s evs → encryptState E s pt = (.ok cm, s') → History E s0 s' (evs ++ [.sent pt cm])
  | received {s s' evs draw m pt mk d} : History E s0 s evs → decryptWithState E draw s m = (.ok (pt, mk), s', d) →
      History E s0 s' (evs ++ [.received m pt mk])
  | failed {s s' evs draw m res d} : History E s0 s evs → decryptWithState E draw s m = (res, s', d) → res.isOk = false → History E s0 s' evs

/-- The message carries the plaintext encrypted with the cipher key and IV of `k` and authenticated with its MAC key. -/
def SealedWith (E : Env) (k : MsgKeys) (pt : Bytes) (cm : CipherMsg) : Prop :=
  ∃ body sm version counter previous ratchet li ri, encryptBody E.C k pt = .ok body ∧
    newSignalMessage E.C E.S version counter previous k.macKey ratchet body li ri = .ok sm ∧
    (cm = .signal sm ∨ ∃ pm version' reg preKey signedPreKey base li', newPreKeyMessage E.S version' reg preKey signedPreKey base li' sm = .ok pm ∧
      cm = .preKey pm)

/-- The event used these (symbolic) keys. -/
def Event.uses (E : Env) : Event → Use → Prop
  | .sent pt cm, u => u.chain = none ∧ ∃ k, KeysAre E.C.H k u.keys ∧ SealedWith E k pt cm
  | .received m _ k, u => u.chain = some m.senderRatchetKey.bytes ∧ KeysAre E.C.H k u.keys

theorem openWith_key {E : Env} {ri li : Option Key32} {m : SignalMsg} {mk : MsgKeys} {x : Bytes × MsgKeys}
    (h : openWith E ri li m mk = .ok x) : x.2 = mk := by
  unfold openWith at h
  cases hv : m.verifyMac E.C E.S m.struct.version ri li mk.macKey with
  | err e => simp [hv] at h
  | panic => simp [hv] at h
  | ok u =>
    simp only [hv, Res.bind_ok] at h
    cases hd : decryptBody E.C mk (m.struct.cipherText.getD []) with
    | err e => simp [hd] at h
    | panic => simp [hd] at h
    | ok pt => simp [hd] at h; rw [← h]

theorem SymHolds.clearPending {H : Bytes → Bytes → Bytes} {s : SState} {t : State} (h : SymHolds H s t) (b : Bool) : SymHolds H (clearPending b s) t := by
  cases b
  · exact h
  · exact ⟨h.root, h.send, h.recv⟩

/-- One decryption, successful or not, is a run of the symbolic ratchet that uses at most one key. -/
theorem decrypt_run (E : Env) (U : Bytes → Prop) (s s' : SState) (t : State) (draw : Option Key32) (m : SignalMsg) (res : Res (Bytes × MsgKeys)) (d : Bool)
    (hs : SymHolds E.C.H s t) (h : decryptWithState E draw s m = (res, s', d)) :
    ∃ t' es, Run U t t' es ∧ SymHolds E.C.H s' t' ∧
      (∀ pt mk, res = .ok (pt, mk) → ∃ k, es = [⟨some m.senderRatchetKey.bytes, k⟩] ∧ KeysAre E.C.H mk k) := by
  rcases decryptWithState_cases E draw s m with ⟨res', d', he, hno, -⟩ | ⟨s1, c, d', hc, -, -, hs1, he⟩
  · rw [he] at h; cases h
    exact ⟨t, [], .refl _, hs, fun pt mk e => by rw [e] at hno; simp [Res.isOk] at hno⟩
  · have h1 : ∃ t1, Run U t t1 [] ∧ SymHolds E.C.H s1 t1 := by
      rcases hs1 with ⟨rfl, -⟩ | ⟨-, -, root, sc, p, r, hr, -, -, -, rfl⟩
      · exact ⟨t, .refl _, hs⟩
      · obtain ⟨t1, t2, g1, g2, g3, -⟩ := ratchet_run E.C U s t m.senderRatchetKey root sc.chainKey.index p (clamp r) hs hr
        exact ⟨t2, by simpa using (Run.single g1).trans g2, g3⟩
    obtain ⟨t1, hr1, ht1⟩ := h1
    rw [he] at h
    cases hrv : c.recv E.C m.struct.counter with
    | mk r c' =>
      rw [hrv] at h
      cases r with
      | err e => cases h; exact ⟨t1, [], hr1, ht1, fun pt mk e => by cases e⟩
      | panic => cases h; exact ⟨t1, [], hr1, ht1, fun pt mk e => by cases e⟩
      | ok mk =>
        simp only [Prod.mk.injEq] at h
        obtain ⟨h2, h3, -⟩ := h
        obtain ⟨t', k, hr2, ht2, hk⟩ := chain_run E.C U s1 t1 m.senderRatchetKey c c' m.struct.counter mk ht1 hc hrv
        refine ⟨t', _, by simpa using hr1.trans hr2, h3 ▸ ht2.clearPending _, ?_⟩
        intro pt mk' e
        have := openWith_key (h2.trans e)
        exact ⟨k, rfl, by rw [show mk' = mk from this]; exact hk⟩

/-- One encryption is a sending step. -/
theorem encrypt_run (E : Env) (U : Bytes → Prop) (s s' : SState) (t : State) (pt : Bytes) (cm : CipherMsg)
    (hs : SymHolds E.C.H s t) (h : encryptState E s pt = (.ok cm, s')) :
    ∃ t' u, Run U t t' [u] ∧ SymHolds E.C.H s' t' ∧ (Event.sent pt cm).uses E u := by
  obtain ⟨sc, body, sm, hsc, hb, hm, rfl, hcase⟩ := encryptState_ok h
  obtain ⟨root, send, recv⟩ := t
  obtain ⟨sc', hsc', hck, hmk⟩ := hs.send
  rw [hsc] at hsc'; cases hsc'
  refine ⟨_, _, Run.single (Step.send (U := U) root send recv), ⟨hs.root, ⟨_, rfl, next_eval E.C hck, hmk⟩, hs.recv⟩, rfl,
    sc.chainKey.msgKeys E.C, keysAre_msg E.C hck, body, sm, _, _, _, _, _, _, hb, hm, ?_⟩
  rcases hcase with ⟨-, h⟩ | ⟨pp, pm, -, hq, h⟩
  · exact .inl h
  · exact .inr ⟨pm, _, _, _, _, _, _, hq, h⟩

/-- Every history is a run of the symbolic double ratchet in which the events use keys in order. -/
theorem history_run {E : Env} {s0 s : SState} {evs : List Event} (h : History E s0 s evs) (U : Bytes → Prop) (t0 : State) (h0 : SymHolds E.C.H s0 t0) :
    ∃ t es us, Run U t0 t es ∧ SymHolds E.C.H s t ∧ us.Sublist es ∧ List.Forall₂ (Event.uses E) evs us := by
  induction h with
  | start => exact ⟨t0, [], [], .refl _, h0, .slnil, .nil⟩
  | sent _ he ih =>
    obtain ⟨t, es, us, h1, h2, h3, h4⟩ := ih
    obtain ⟨t', u, g1, g2, g3⟩ := encrypt_run E U _ _ t _ _ h2 he
    exact ⟨t', _, us ++ [u], h1.trans g1, g2, h3.append (.refl _), forall₂_append h4 (.cons g3 .nil)⟩
  | received _ hd ih =>
    obtain ⟨t, es, us, h1, h2, h3, h4⟩ := ih
    obtain ⟨t', es', g1, g2, g3⟩ := decrypt_run E U _ _ t _ _ _ _ h2 hd
    obtain ⟨k, rfl, hk⟩ := g3 _ _ rfl
    exact ⟨t', _, us ++ [_], h1.trans g1, g2, h3.append (.refl _), forall₂_append h4 (.cons ⟨rfl, hk⟩ .nil)⟩
  | failed _ hd _ ih =>
    obtain ⟨t, es, us, h1, h2, h3, h4⟩ := ih
    obtain ⟨t', es', g1, g2, -⟩ := decrypt_run E U _ _ t _ _ _ _ h2 hd
    refine ⟨t', _, us, h1.trans g1, g2, ?_, h4⟩
    have := h3.append (List.nil_sublist es')
    simpa using this

/-! ### C64 -/

/-- **C64 (forward secrecy).** Take any session state whose secrets are independent of each other, and any history of it.  An attacker who
then steals the resulting state, and who knows every Diffie-Hellman output there ever was, cannot compute the cipher key, the MAC key or the
IV block of any message that was sent or received in that history; although each of them followed from the state at the start. -/
theorem C64_forward_secrecy (E : Env) (s0 s : SState) (evs : List Event) (t0 : State) (h0 : SymHolds E.C.H s0 t0) (hf : Fresh t0)
    (h : History E s0 s evs) :
    ∃ t es us, Run (fun _ => False) t0 t es ∧ SymHolds E.C.H s t ∧ us.Sublist es ∧ List.Forall₂ (Event.uses E) evs us ∧
      ∀ u ∈ us, ∀ x ∈ [u.keys.cipher, u.keys.mac, u.keys.iv], Sym.Knows (· ∈ t0.secrets) x ∧ ¬ Sym.Knows (· ∈ t.secrets) x := by
  obtain ⟨t, es, us, h1, h2, h3, h4⟩ := history_run h (fun _ => False) t0 h0
  refine ⟨t, es, us, h1, h2, h3, h4, ?_⟩
  intro u hu x hx
  have hm : x ∈ es.flatMap fun u => u.keys.list := List.mem_flatMap.2 ⟨u, h3.subset hu, hx⟩
  have ha : Anti (t0.secrets ++ []) := by simpa using hf.anti
  have hr := run_safe h1 [] ha
  have hk := (run_known (K := (· ∈ t0.secrets)) (fun v hv => hv.elim) h1 (fun t ht => .given ht)).2 x hm
  refine ⟨hk, ?_⟩
  have := hr.not_known ha hm
  simpa using this

/-! Every initialised state can be labelled. -/

/-- Underived secrets with labels from `n` up to `m`. -/
structure Lab (n m : Nat) (l : List Term) : Prop where
  le : n ≤ m
  atoms : ∀ t ∈ l, ∃ k v, t = .atom [k] v ∧ n ≤ k ∧ k < m
  distinct : l.Pairwise fun a b => ∀ l v w, ¬ (a = .atom l v ∧ b = .atom l w)

theorem Lab.append {n m p : Nat} {a b : List Term} (h1 : Lab n m a) (h2 : Lab m p b) : Lab n p (a ++ b) := by
  refine ⟨Nat.le_trans h1.le h2.le, ?_, ?_⟩
  · intro t ht
    rcases List.mem_append.1 ht with ht | ht
    · obtain ⟨k, v, e, g1, g2⟩ := h1.atoms t ht
      exact ⟨k, v, e, g1, Nat.lt_of_lt_of_le g2 h2.le⟩
    · obtain ⟨k, v, e, g1, g2⟩ := h2.atoms t ht
      exact ⟨k, v, e, Nat.le_trans h1.le g1, g2⟩
  · rw [List.pairwise_append]
    refine ⟨h1.distinct, h2.distinct, ?_⟩
    rintro x hx y hy l v w ⟨e1, e2⟩
    obtain ⟨k, v', e, g1, g2⟩ := h1.atoms x hx
    obtain ⟨k', v'', e', g1', g2'⟩ := h2.atoms y hy
    rw [e] at e1; rw [e'] at e2
    simp only [Term.atom.injEq] at e1 e2
    have := e1.1.trans e2.1.symm
    simp only [List.cons.injEq, and_true] at this
    omega

theorem Lab.one (n : Nat) (v : Bytes) : Lab n (n + 1) [.atom [n] v] := ⟨by omega, by simp, by simp⟩

theorem label_keys (H : Bytes → Bytes → Bytes) (l : List MsgKeys) (hl : ∀ k ∈ l, k.iv.length ≤ 16) (n : Nat) :
    ∃ m lt, List.Forall₂ (KeysAre H) l lt ∧ Lab n m (lt.flatMap MsgTerms.list) := by
  induction l generalizing n with
  | nil => exact ⟨n, [], .nil, ⟨Nat.le_refl _, by simp, by simp⟩⟩
  | cons k l ih =>
    obtain ⟨m, lt, h1, h2⟩ := ih (fun k hk => hl k (by simp [hk])) (n + 1 + 1 + 1)
    refine ⟨m, ⟨.atom [n] k.cipherKey, .atom [n + 1] k.macKey, .atom [n + 1 + 1] k.iv⟩ :: lt, .cons ⟨rfl, rfl, ?_⟩ h1, ?_⟩
    · exact (List.take_of_length_le (hl k (by simp))).symm
    · exact (((Lab.one n _).append (Lab.one (n + 1) _)).append (Lab.one (n + 1 + 1) _)).append h2

theorem label_chains (H : Bytes → Bytes → Bytes) (l : List Chain) (hl : ∀ c ∈ l, ∀ k ∈ c.msgKeys, k.iv.length ≤ 16) (n : Nat) :
    ∃ m lt, List.Forall₂ (ChainIs H) l lt ∧ Lab n m (lt.flatMap ChainTerms.list) := by
  induction l generalizing n with
  | nil => exact ⟨n, [], .nil, ⟨Nat.le_refl _, by simp, by simp⟩⟩
  | cons c l ih =>
    obtain ⟨m1, ks, g1, g2⟩ := label_keys H c.msgKeys (hl c (by simp)) (n + 1)
    obtain ⟨m, lt, h1, h2⟩ := ih (fun k hk => hl k (by simp [hk])) m1
    refine ⟨m, ⟨c.pair.pub.bytes, .atom [n] c.chainKey.key, ks⟩ :: lt, .cons ⟨rfl, rfl, g1⟩ h1, ?_⟩
    exact ((Lab.one n c.chainKey.key).append g2).append h2

/-- A session state as the library makes them: a root key, a sending chain without skipped keys, and IVs of at most 16 bytes. -/
structure Initialised (s : SState) : Prop where
  root : s.rootKey ≠ none
  send : ∃ sc, s.senderChain = some sc ∧ sc.msgKeys = []
  ivs : ∀ c ∈ s.receiverChains, ∀ k ∈ c.msgKeys, k.iv.length ≤ 16

/-- **C64 applies to every session**: the secrets of every initialised state can be taken as independent. -/
theorem C64_applies (H : Bytes → Bytes → Bytes) (s : SState) (h : Initialised s) : ∃ t0, SymHolds H s t0 ∧ Fresh t0 := by
  obtain ⟨root, hr⟩ := Option.ne_none_iff_exists'.1 h.root
  obtain ⟨sc, hsc, hm⟩ := h.send
  obtain ⟨m, lt, h1, h2⟩ := label_chains H s.receiverChains h.ivs 2
  have hl : Lab 0 m (.atom [0] root :: .atom [1] sc.chainKey.key :: lt.flatMap ChainTerms.list) :=
    ((Lab.one 0 root).append (Lab.one 1 sc.chainKey.key)).append h2
  refine ⟨⟨.atom [0] root, .atom [1] sc.chainKey.key, lt⟩, ⟨hr, ⟨sc, hsc, rfl, hm⟩, h1⟩, ?_, hl.distinct⟩
  intro t ht
  obtain ⟨k, v, e, -⟩ := hl.atoms t ht
  exact ⟨[k], v, e, by simp⟩

theorem public_keys (H : Bytes → Bytes → Bytes) (l : List MsgKeys) (hl : ∀ k ∈ l, k.iv.length ≤ 16) :
    ∃ lt, List.Forall₂ (KeysAre H) l lt ∧ ∀ t ∈ lt.flatMap MsgTerms.list, ∃ v, t = .pub v := by
  induction l with
  | nil => exact ⟨[], .nil, by simp⟩
  | cons k l ih =>
    obtain ⟨lt, h1, h2⟩ := ih (fun k hk => hl k (by simp [hk]))
    refine ⟨⟨.pub k.cipherKey, .pub k.macKey, .pub k.iv⟩ :: lt, .cons ⟨rfl, rfl, ?_⟩ h1, ?_⟩
    · exact (List.take_of_length_le (hl k (by simp))).symm
    · intro t ht
      simp only [List.flatMap_cons, MsgTerms.list, List.cons_append, List.nil_append, List.mem_cons] at ht
      rcases ht with rfl | rfl | rfl | ht
      · exact ⟨_, rfl⟩
      · exact ⟨_, rfl⟩
      · exact ⟨_, rfl⟩
      · exact h2 t ht

theorem public_chains (H : Bytes → Bytes → Bytes) (l : List Chain) (hl : ∀ c ∈ l, ∀ k ∈ c.msgKeys, k.iv.length ≤ 16) :
    ∃ lt, List.Forall₂ (ChainIs H) l lt ∧ ∀ t ∈ lt.flatMap ChainTerms.list, ∃ v, t = .pub v := by
  induction l with
  | nil => exact ⟨[], .nil, by simp⟩
  | cons c l ih =>
    obtain ⟨ks, g1, g2⟩ := public_keys H c.msgKeys (hl c (by simp))
    obtain ⟨lt, h1, h2⟩ := ih (fun k hk => hl k (by simp [hk]))
    refine ⟨⟨c.pair.pub.bytes, .pub c.chainKey.key, ks⟩ :: lt, .cons ⟨rfl, rfl, g1⟩ h1, ?_⟩
    intro t ht
    simp only [List.flatMap_cons, ChainTerms.list, List.cons_append, List.mem_cons, List.mem_append] at ht
    rcases ht with rfl | ht | ht
    · exact ⟨_, rfl⟩
    · exact g2 t ht
    · exact h2 t ht

/-- A state all of whose secrets are known to everyone. -/
theorem public_state (H : Bytes → Bytes → Bytes) (s : SState) (h : Initialised s) : ∃ t0, SymHolds H s t0 ∧ ∀ t ∈ t0.secrets, ∃ v, t = .pub v := by
  obtain ⟨root, hr⟩ := Option.ne_none_iff_exists'.1 h.root
  obtain ⟨sc, hsc, hm⟩ := h.send
  obtain ⟨lt, h1, h2⟩ := public_chains H s.receiverChains h.ivs
  refine ⟨⟨.pub root, .pub sc.chainKey.key, lt⟩, ⟨hr, ⟨sc, hsc, rfl, hm⟩, h1⟩, ?_⟩
  intro t ht
  simp only [State.secrets, List.mem_cons] at ht
  rcases ht with rfl | rfl | ht
  · exact ⟨_, rfl⟩
  · exact ⟨_, rfl⟩
  · exact h2 t ht

/-! ### C65 -/

/-- **C65 (post-compromise security).** Suppose everything in a session state is known to everyone (it was stolen), and then a message with a
new ratchet key is processed (authentic or not) with fresh random bytes `r`, so that the Diffie-Hellman output `a` of that ratchet key and the
new private key is used.  If the attacker does not know `a` (and whatever contains it), then in every later history he can compute neither the
root key nor the sending chain key, nor any key of a message sent, nor any key of a message received on a chain opened later. -/
theorem C65_post_compromise (E : Env) (s1 s2 s3 : SState) (hi : Initialised s1) (m : SignalMsg) (r : Key32) (res : Res (Bytes × MsgKeys))
    (hd : decryptWithState E (some r) s1 m = (res, s2, true)) (evs : List Event) (h : History E s2 s3 evs)
    (a : Bytes) (ha : a = (E.C.dh m.senderRatchetKey (clamp r)).bytes) :
    ∃ t1 t2 t3 es1 es2 us, SymHolds E.C.H s1 t1 ∧ (∀ t ∈ t1.secrets, ∃ v, t = .pub v) ∧
      Run (· = a) t1 t2 es1 ∧ SymHolds E.C.H s2 t2 ∧ Run (· = a) t2 t3 es2 ∧ SymHolds E.C.H s3 t3 ∧
      us.Sublist es2 ∧ List.Forall₂ (Event.uses E) evs us ∧
      ¬ Sym.Knows (fun x => ¬ x.mentions (.atom [] a)) t3.root ∧ ¬ Sym.Knows (fun x => ¬ x.mentions (.atom [] a)) t3.send ∧
      ∀ u ∈ us, (∀ n, u.chain = some n → ∀ c ∈ s2.receiverChains, c.pair.pub.bytes ≠ n) →
        ∀ x ∈ [u.keys.cipher, u.keys.mac, u.keys.iv], ¬ Sym.Knows (fun x => ¬ x.mentions (.atom [] a)) x := by
  obtain ⟨t1, h1, hp⟩ := public_state E.C.H s1 hi
  -- the state right after the ratchet step, then the message itself
  rcases decryptWithState_cases E (some r) s1 m with ⟨res', d', he, hno, hx⟩ | ⟨s1', c, d', hc, -, -, hs1, he⟩
  · exfalso
    rw [he] at hd; cases hd
    rcases hx with ⟨-, -, h⟩ | ⟨-, -, h⟩ | ⟨-, ⟨-, h⟩ | ⟨-, h, -⟩⟩
    · cases h
    · cases h
    · cases h
    · cases h
  · have hd' : d' = true := by
      rw [he] at hd
      cases hrv : c.recv E.C m.struct.counter with
      | mk q c' => rw [hrv] at hd; cases q <;> (simp only [Prod.mk.injEq] at hd; exact hd.2.2)
    subst hd'
    rcases hs1 with ⟨-, h'⟩ | ⟨hn, -, root, sc, p, r', hr, hsc, hpriv, hr', rfl⟩
    · cases h'
    cases hr'
    obtain ⟨t2a, t2b, g1, g2, g3, g4⟩ := ratchet_run E.C (· = a) s1 t1 m.senderRatchetKey root sc.chainKey.index p (clamp r) h1 hr
    -- names present in s2
    generalize hs1' : ratchetStep E.C s1 m.senderRatchetKey root sc.chainKey.index p (clamp r) = s1' at *
    have hmsg : ∃ t2 es, Run (· = a) t2b t2 es ∧ SymHolds E.C.H s2 t2 ∧
        s2.receiverChains.map (fun c => c.pair.pub) = s1'.receiverChains.map (fun c => c.pair.pub) := by
      rw [he] at hd
      cases hrv : c.recv E.C m.struct.counter with
      | mk q c' =>
        rw [hrv] at hd
        cases q with
        | err e => cases hd; exact ⟨t2b, [], .refl _, g3, rfl⟩
        | panic => cases hd; exact ⟨t2b, [], .refl _, g3, rfl⟩
        | ok mk =>
          simp only [Prod.mk.injEq] at hd
          obtain ⟨-, h3, -⟩ := hd
          obtain ⟨t', k, hr2, ht2, hk⟩ := chain_run E.C (· = a) s1' t2b m.senderRatchetKey c c' m.struct.counter mk g3 hc hrv
          refine ⟨t', _, hr2, h3 ▸ ht2.clearPending _, ?_⟩
          rw [← h3, clearPending_chains]
          obtain ⟨pre, post, hl, -, hf⟩ := modifyFirst_split hc
          show (modifyFirst _ _ s1'.receiverChains).map _ = _
          have hpair : c'.pair = c.pair := by have := recv_pair E.C c m.struct.counter; rw [hrv] at this; exact this
          rw [hf, hl]
          simp [hpair]
    obtain ⟨t2, es2, g5, g6, hnames⟩ := hmsg
    obtain ⟨t3, es3, us, k1, k2, k3, k4⟩ := history_run h (· = a) t2 g6
    -- the guard: chains that exist in t2b are exempt
    let old : Bytes → Prop := fun n => ∃ c ∈ s2.receiverChains, c.pair.pub.bytes = n
    have hold : ∀ c ∈ t2b.recv, old c.name := by
      intro ct hct
      have hF := g3.recv
      have : ∀ (l : List Chain) (lt : List ChainTerms), List.Forall₂ (ChainIs E.C.H) l lt → ∀ ct ∈ lt, ∃ c ∈ l, c.pair.pub.bytes = ct.name := by
        intro l lt hl
        induction hl with
        | nil => simp
        | cons hx _ ih =>
          intro ct hct
          rcases List.mem_cons.1 hct with rfl | hct
          · exact ⟨_, by simp, hx.name⟩
          · obtain ⟨c, hc, e⟩ := ih ct hct
            exact ⟨c, by simp [hc], e⟩
      obtain ⟨c, hc, e⟩ := this _ _ hF ct hct
      have : c.pair.pub ∈ s2.receiverChains.map (fun c => c.pair.pub) := by rw [hnames]; exact List.mem_map.2 ⟨c, hc, rfl⟩
      obtain ⟨c2, hc2, e2⟩ := List.mem_map.1 this
      exact ⟨c2, hc2, by rw [e2]; exact e⟩
    have hU : (fun x => x = a) (E.C.dh m.senderRatchetKey (clamp r)).bytes := ha.symm
    have hguard : Guarded (.atom [] a) old t2b := by
      -- the forgotten chain does not matter: guard with every name exempt, then restrict to what is left
      have hg0 := heal_send (U := (· = a)) (root := t1.root) (recv := t1.recv) (n := m.senderRatchetKey.bytes)
        (dh1 := (E.C.dh m.senderRatchetKey p).bytes) hU (fun _ => True) (fun _ _ => trivial) trivial
      rw [← g4] at hg0
      have hg1 := (run_guarded g2 hg0).1
      rw [← ha] at hg1
      exact ⟨hg1.root, hg1.send, fun c hc hno => absurd (hold c hc) hno⟩
    have hg2 := (run_guarded g5 hguard).1
    obtain ⟨hg3, hu⟩ := run_guarded k1 hg2
    refine ⟨t1, t2, t3, _, es3, us, h1, hp, ((Run.single g1).trans g2).trans g5, g6, k1, k2, k3, k4,
      not_knows_mentions hg3.root, not_knows_mentions hg3.send, ?_⟩
    intro u huu hch x hx
    refine not_knows_mentions (hu u (k3.subset huu) ?_ x hx)
    rintro n hn ⟨c, hc, e⟩
    exact hch n hn c hc e

/-! ### C66 -/

theorem x3dh_eval (C : Crypto) (U : Bytes → Prop) (d1 d2 d3 : Bytes) (d4 : Option Bytes) :
    (x3dhRoot (([d1, d2, d3] ++ d4.toList).map (dhTerm U))).eval C.H = (x3dh C.H d1 d2 d3 d4).1 ∧
    (x3dhChain (([d1, d2, d3] ++ d4.toList).map (dhTerm U))).eval C.H = (x3dh C.H d1 d2 d3 d4).2 := by
  have hp : (x3dhPrk (([d1, d2, d3] ++ d4.toList).map (dhTerm U))).eval C.H =
      C.H noSalt (List.replicate 32 0xFF ++ d1 ++ d2 ++ d3 ++ d4.getD []) := by
    cases d4 <;> simp [x3dhPrk, Term.eval, dhTerm_eval]
  obtain ⟨t1, t2, -⟩ := eval_T C.H (x3dhPrk (([d1, d2, d3] ++ d4.toList).map (dhTerm U))) (ascii "WhisperText")
  obtain ⟨h1, h2⟩ := hkdf64 C noSalt (List.replicate 32 0xFF ++ d1 ++ d2 ++ d3 ++ d4.getD []) (ascii "WhisperText")
  rw [hp] at t1 t2
  exact ⟨t1.trans h1.symm, t2.trans h2.symm⟩

/-- The Diffie-Hellman outputs an initiator mixes: identity key with signed prekey, base key with identity key, base key with signed prekey,
base key with one-time prekey. -/
def initiatorDhs (E : Env) (b : Bundle) (spk base : Key32) : List Bytes :=
  [(E.C.dh spk E.identity.priv).bytes, (E.C.dh b.identityKey base).bytes, (E.C.dh spk base).bytes] ++
    (b.preKeyPublic.map fun o => (E.C.dh o base).bytes).toList

/-- The ones a responder mixes. -/
def responderDhs (E : Env) (m : PreKeyMsg) (spk : Key32) (oneTime : Option Key32) : List Bytes :=
  [(E.C.dh m.identityKey spk).bytes, (E.C.dh m.baseKey E.identity.priv).bytes, (E.C.dh m.baseKey spk).bytes] ++
    (oneTime.map fun o => (E.C.dh m.baseKey o).bytes).toList

theorem loaded_new {st : Store} {a : Addr} {r : Rec} (h : st.load a = .ok r) :
    (if r.fresh then r else r.archiveCurrentState).state.receiverChains = [] := by
  unfold Store.load at h
  cases hs : st.sessions a with
  | none =>
    simp only [hs, Res.ok.injEq] at h
    subst h
    rfl
  | some s0 =>
    simp only [hs] at h
    have hf : r.fresh = false := by
      unfold Rec.ofStruct at h
      cases h1 : seqRes (s0.previous.map SState.ofStruct) with
      | err e => simp [h1] at h
      | panic => simp [h1] at h
      | ok ps =>
        simp only [h1, Res.bind_ok] at h
        cases h2 : SState.ofStruct s0.state with
        | err e => simp [h2] at h
        | panic => simp [h2] at h
        | ok s => simp only [h2, Res.map_ok, Res.ok.injEq] at h; rw [← h]; rfl
    rw [if_neg (by simp [hf])]
    simp [Rec.archiveCurrentState, Rec.promote, Rec.state, SState.new]

theorem _root_.Verif.Sym.Guarded.all {a : Term} {s : State} (h : Guarded a (fun _ => False) s) {y : Term} (hy : y ∈ s.secrets) : y.mentions a := by
  simp only [State.secrets, List.mem_cons, List.mem_flatMap, ChainTerms.list] at hy
  rcases hy with rfl | rfl | ⟨c, hc, rfl | ⟨k, hk, hy⟩⟩
  · exact h.root
  · exact h.send
  · exact (h.recv c hc _root_.id).1
  · exact (h.recv c hc _root_.id).2 k hk y hy

/-- The symbolic state an initiator's session starts in: X3DH with the Diffie-Hellman outputs, then one ratchet step. -/
noncomputable def initiatorStart (E : Env) (U : Bytes → Prop) (b : Bundle) (spk base ratchet : Key32) : State :=
  let D := (initiatorDhs E b spk base).map (dhTerm U)
  let d := dhTerm U (E.C.dh spk ratchet).bytes
  ⟨rootOf (x3dhRoot D) d, chainOf (x3dhRoot D) d, [⟨spk.bytes, x3dhChain D, []⟩]⟩

/-- The one a responder's session starts in: X3DH. -/
noncomputable def responderStart (E : Env) (U : Bytes → Prop) (m : PreKeyMsg) (spk : Key32) (oneTime : Option Key32) : State :=
  let D := (responderDhs E m spk oneTime).map (dhTerm U)
  ⟨x3dhRoot D, x3dhChain D, []⟩

/-- What a processed bundle leaves in the store. -/
theorem initiator_start (E : Env) (st st' : Store) (pos pos' : Nat) (a : Addr) (b : Bundle)
    (h : st.processBundle E pos a b = (.ok (), st', pos')) :
    ∃ (r : Rec) (spk rb rr : Key32), st'.load a = .ok r ∧ b.signedPreKeyPublic = some spk ∧ E.rng pos = some rb ∧ E.rng (pos + 1) = some rr ∧
      r.state.localIdentity = some E.identity.pub ∧ r.state.remoteIdentity = some b.identityKey ∧ r.state.version = 3 ∧
      ∀ U, SymHolds E.C.H r.state (initiatorStart E U b spk (clamp rb) (clamp rr)) := by
  obtain ⟨r, spk, r', hc, hl, h3, h4, -⟩ := Store.processBundle_ok h
  have hspk : b.signedPreKeyPublic = some spk := by
    unfold checkBundle at hc
    split at hc
    · simp at hc
    · cases hb : b.signedPreKeyPublic with
      | none => simp [hb] at hc
      | some k =>
        simp only [hb] at hc
        split at hc
        · simp at hc
        · simp only [Res.ok.injEq] at hc; rw [hc]
  obtain ⟨base, bp, ratchet, derived, sending, g1, g2, g3, g4, g5, g6, -⟩ := buildFromBundle_ok h3
  have hgen : ∀ (o : Option Key32) (kp : KeyPair), generateKeyPair E.C o = .ok kp → ∃ q, o = some q ∧ kp = ⟨E.C.basePub (clamp q), some (clamp q)⟩ := by
    intro o kp ho
    cases o with
    | none => simp [generateKeyPair] at ho
    | some q => simp only [generateKeyPair, Res.ok.injEq] at ho; exact ⟨q, rfl, ho.symm⟩
  obtain ⟨rb, hrb, rfl⟩ := hgen _ _ g1
  obtain ⟨rr, hrr, rfl⟩ := hgen _ _ g4
  simp only [Option.some.injEq] at g2
  subst g2
  have hst : r'.state = initSenderState E (if r.fresh then r else r.archiveCurrentState).state b spk ⟨E.C.basePub (clamp rb), some (clamp rb)⟩
      ⟨E.C.basePub (clamp rr), some (clamp rr)⟩ derived sending := by
    rw [g6]; simp [Rec.state, Rec.set]
  have hnil := loaded_new hl
  refine ⟨_, spk, rb, rr, h4, hspk, hrb, hrr, ?_, ?_, ?_, fun U => ?_⟩
  · rw [ofStates_state, hst]; rfl
  · rw [ofStates_state, hst]; rfl
  · rw [ofStates_state, hst]; rfl
  rw [C54_initiator] at g3
  simp only [Res.ok.injEq] at g3
  rw [createChain_eq E.C _ _ _ rfl] at g5
  simp only [Res.ok.injEq] at g5
  obtain ⟨e1, e2⟩ := x3dh_eval E.C U (E.C.dh spk E.identity.priv).bytes (E.C.dh b.identityKey (clamp rb)).bytes
    (E.C.dh spk (clamp rb)).bytes (b.preKeyPublic.map fun o => (E.C.dh o (clamp rb)).bytes)
  have hroot : derived.root = (x3dhRoot ((initiatorDhs E b spk (clamp rb)).map (dhTerm U))).eval E.C.H := by
    rw [← g3]; exact e1.symm
  have hchain : derived.chain.key = (x3dhChain ((initiatorDhs E b spk (clamp rb)).map (dhTerm U))).eval E.C.H := by
    rw [← g3]; exact e2.symm
  obtain ⟨k1, k2⟩ := kdfRoot_eval E.C (d := dhTerm U (E.C.dh spk (clamp rr)).bytes) (v := E.C.dh spk (clamp rr)) hroot (dhTerm_eval _ _ _).symm
  rw [g5] at k1 k2
  rw [ofStates_state, hst]
  refine ⟨congrArg some k1, ⟨_, rfl, k2, rfl⟩, ?_⟩
  have : (initSenderState E (if r.fresh then r else r.archiveCurrentState).state b spk ⟨E.C.basePub (clamp rb), some (clamp rb)⟩
    ⟨E.C.basePub (clamp rr), some (clamp rr)⟩ derived sending).receiverChains = [⟨⟨spk, none⟩, derived.chain, []⟩] := by
    simp [initSenderState, SState.addReceiverChain, SState.setSenderChain, hnil, maxReceiverChains]
  rw [this]
  exact .cons ⟨rfl, hchain, .nil⟩ .nil

theorem initiatorStart_guarded (E : Env) (b : Bundle) (spk base ratchet : Key32) (x : Bytes) (hx : x ∈ initiatorDhs E b spk base) :
    Guarded (.atom [] x) (fun _ => False) (initiatorStart E (· = x) b spk base ratchet) := by
  have hm : ∃ y ∈ (initiatorDhs E b spk base).map (dhTerm (· = x)), y.mentions (.atom [] x) :=
    ⟨_, List.mem_map.2 ⟨x, hx, rfl⟩, by rw [dhTerm_unknown (U := (· = x)) rfl]; rfl⟩
  obtain ⟨m1, m2⟩ := mentions_x3dh hm
  obtain ⟨m3, m4⟩ := mentions_root (dh := dhTerm (· = x) (E.C.dh spk ratchet).bytes) (.inl m1)
  exact ⟨m3, m4, by simpa [initiatorStart] using m2⟩

theorem responderStart_guarded (E : Env) (m : PreKeyMsg) (spk : Key32) (ot : Option Key32) (x : Bytes) (hx : x ∈ responderDhs E m spk ot) :
    Guarded (.atom [] x) (fun _ => False) (responderStart E (· = x) m spk ot) := by
  have hm : ∃ y ∈ (responderDhs E m spk ot).map (dhTerm (· = x)), y.mentions (.atom [] x) :=
    ⟨_, List.mem_map.2 ⟨x, hx, rfl⟩, by rw [dhTerm_unknown (U := (· = x)) rfl]; rfl⟩
  obtain ⟨m1, m2⟩ := mentions_x3dh hm
  exact ⟨m1, m2, by simp [responderStart]⟩

/-- **C66 (initiator).** After a bundle was processed, the session's keys are those of X3DH and one ratchet step.  If the attacker does not
know one of the Diffie-Hellman outputs that were mixed (whichever), he can compute no key of the session in any later history, even if he
knows everything else. -/
theorem C66_initiator (E : Env) (st st' : Store) (pos pos' : Nat) (a : Addr) (b : Bundle)
    (h : st.processBundle E pos a b = (.ok (), st', pos')) :
    ∃ (r : Rec) (spk rb rr : Key32), st'.load a = .ok r ∧ b.signedPreKeyPublic = some spk ∧ E.rng pos = some rb ∧ E.rng (pos + 1) = some rr ∧
      ∀ x ∈ initiatorDhs E b spk (clamp rb), ∀ (s : SState) (evs : List Event), History E r.state s evs →
        ∃ (D : List Term) (d : Term) (t0 t : State) (es us : List Use), D = (initiatorDhs E b spk (clamp rb)).map (dhTerm (· = x)) ∧
          d = dhTerm (· = x) (E.C.dh spk (clamp rr)).bytes ∧
          t0 = ⟨rootOf (x3dhRoot D) d, chainOf (x3dhRoot D) d, [⟨spk.bytes, x3dhChain D, []⟩]⟩ ∧ SymHolds E.C.H r.state t0 ∧
          Run (· = x) t0 t es ∧ SymHolds E.C.H s t ∧ us.Sublist es ∧ List.Forall₂ (Event.uses E) evs us ∧
          (∀ y ∈ t.secrets, ¬ Sym.Knows (fun y => ¬ y.mentions (.atom [] x)) y) ∧
          ∀ u ∈ us, ∀ y ∈ [u.keys.cipher, u.keys.mac, u.keys.iv], ¬ Sym.Knows (fun y => ¬ y.mentions (.atom [] x)) y := by
  obtain ⟨r, spk, rb, rr, h1, h2, h3, h4, -, -, -, hh⟩ := initiator_start E st st' pos pos' a b h
  refine ⟨r, spk, rb, rr, h1, h2, h3, h4, fun x hx s evs hist => ?_⟩
  obtain ⟨t, es, us, q1, q2, q3, q4⟩ := history_run hist (· = x) _ (hh _)
  obtain ⟨hg', hu⟩ := run_guarded q1 (initiatorStart_guarded E b spk (clamp rb) (clamp rr) x hx)
  refine ⟨_, _, _, t, es, us, rfl, rfl, rfl, hh _, q1, q2, q3, q4, ?_, ?_⟩
  · exact fun y hy => not_knows_mentions (hg'.all hy)
  · exact fun u huu y hy => not_knows_mentions (hu u (q3.subset huu) (fun _ _ => not_false) y hy)

/-- What an accepted first message leaves in the store. -/
theorem responder_start (E : Env) (st st' : Store) (pos pos' : Nat) (a : Addr) (m : PreKeyMsg) (x0 : Bytes × MsgKeys)
    (hnew : st.sessions a = none) (h : st.decryptPreKey E pos a m = (.ok x0, st', pos')) :
    ∃ (r : Rec) (s0 : SState) (spk : IdKeyPair) (oneTime : Option Key32), st'.load a = .ok r ∧
      st.signedPreKeys m.struct.signedPreKeyId = some spk ∧ 
      (oneTime = m.struct.preKeyId.bind fun o => (st.preKeys o.value).map (·.priv)) ∧
      History E s0 r.state [.received m.message x0.1 x0.2] ∧
      s0.localIdentity = some E.identity.pub ∧ s0.remoteIdentity = some m.identityKey ∧ s0.version = 3 ∧
      ∀ U, SymHolds E.C.H s0 (responderStart E U m spk.priv oneTime) := by
  obtain ⟨r, r1, r', id, h1, h2, h3, h4, -⟩ := Store.decryptPreKey_ok h
  have hr : r = Rec.new := by
    simp only [Store.load, hnew, Res.ok.injEq] at h1; exact h1.symm
  subst hr
  have hk : ¬ Knows Rec.new m := by
    rintro ⟨s, hs, -, hb⟩
    simp only [Rec.new, Rec.state, Rec.prevStates, List.map_nil, List.mem_cons, List.not_mem_nil, or_false] at hs
    subst hs
    simp [SState.new] at hb
  have hv : processV3 E st.preKeys st.signedPreKeys Rec.new m = (.ok (some id), r1) := by
    unfold process at h2
    split at h2
    · simp at h2
    · cases hp : processV3 E st.preKeys st.signedPreKeys Rec.new m with
      | mk res r2 =>
        rw [hp] at h2
        cases res with
        | err e => simp at h2
        | panic => simp at h2
        | ok i => simp only [Prod.mk.injEq] at h2; rw [h2.1, h2.2.1]
  obtain ⟨kp, ot, keys, hkp, hcalc, hot, e⟩ := processV3_new hk hv
  have hfresh : (Rec.new).fresh = true := rfl
  simp only [hfresh, if_true] at e
  have hprev : r1.prev = [] := by rw [e]; rfl
  have hst : r1.state = respond E Rec.new.state m kp keys := by rw [e]; simp [Rec.state, Rec.set]
  rw [decryptWithRecord_single hprev] at h3
  simp only [Prod.mk.injEq] at h3
  have hdec : decryptWithState E (E.rng pos) r1.state m.message = (.ok x0, r'.state, (decryptWithState E (E.rng pos) r1.state m.message).2.2) := by
    refine Prod.ext ?_ (Prod.ext ?_ rfl)
    · have h5 := h3.1
      cases hy : (decryptWithState E (E.rng pos) r1.state m.message).1 with
      | err e => rw [hy] at h5; simp at h5
      | panic => rw [hy] at h5; simp at h5
      | ok y => rw [hy] at h5; simp only at h5; exact h5
    · rw [← h3.2.1]; simp [Rec.state, Rec.set]
  refine ⟨_, r1.state, kp, ot, h4, hkp, ?_, ?_, ?_, ?_, ?_, fun U => ?_⟩
  · rcases hot with ⟨h5, h6⟩ | ⟨o, kp2, h5, h6, h7⟩
    · rw [h5, h6]; rfl
    · rw [h5, h7]; simp [h6]
  · rw [ofStates_state]
    exact History.received (evs := []) .start hdec
  · rw [hst]; rfl
  · rw [hst]; rfl
  · rw [hst]; rfl
  rw [C54_responder] at hcalc
  simp only [Res.ok.injEq] at hcalc
  obtain ⟨e1, e2⟩ := x3dh_eval E.C U (E.C.dh m.identityKey kp.priv).bytes (E.C.dh m.baseKey E.identity.priv).bytes
    (E.C.dh m.baseKey kp.priv).bytes (ot.map fun o => (E.C.dh m.baseKey o).bytes)
  rw [hst]
  refine ⟨?_, ⟨_, rfl, ?_, rfl⟩, .nil⟩
  · rw [← hcalc]; exact congrArg some e1.symm
  · rw [← hcalc]; exact e2.symm

/-- **C66 (responder).** The same for the side that received the first message, from the moment the session exists. -/
theorem C66_responder (E : Env) (st st' : Store) (pos pos' : Nat) (a : Addr) (m : PreKeyMsg) (x0 : Bytes × MsgKeys)
    (hnew : st.sessions a = none) (h : st.decryptPreKey E pos a m = (.ok x0, st', pos')) :
    ∃ (r : Rec) (s0 : SState) (spk : IdKeyPair) (oneTime : Option Key32), st'.load a = .ok r ∧
      st.signedPreKeys m.struct.signedPreKeyId = some spk ∧ 
      (oneTime = m.struct.preKeyId.bind fun o => (st.preKeys o.value).map (·.priv)) ∧
      History E s0 r.state [.received m.message x0.1 x0.2] ∧
      ∀ x ∈ responderDhs E m spk.priv oneTime, ∀ (s : SState) (evs : List Event), History E s0 s evs →
        ∃ (D : List Term) (t0 t : State) (es us : List Use), D = (responderDhs E m spk.priv oneTime).map (dhTerm (· = x)) ∧
          t0 = ⟨x3dhRoot D, x3dhChain D, []⟩ ∧ SymHolds E.C.H s0 t0 ∧
          Run (· = x) t0 t es ∧ SymHolds E.C.H s t ∧ us.Sublist es ∧ List.Forall₂ (Event.uses E) evs us ∧
          (∀ y ∈ t.secrets, ¬ Sym.Knows (fun y => ¬ y.mentions (.atom [] x)) y) ∧
          ∀ u ∈ us, ∀ y ∈ [u.keys.cipher, u.keys.mac, u.keys.iv], ¬ Sym.Knows (fun y => ¬ y.mentions (.atom [] x)) y := by
  obtain ⟨r, s0, spk, ot, h1, h2, h3, h4, -, -, -, hh⟩ := responder_start E st st' pos pos' a m x0 hnew h
  refine ⟨r, s0, spk, ot, h1, h2, h3, h4, fun x hx s evs hist => ?_⟩
  obtain ⟨t, es, us, q1, q2, q3, q4⟩ := history_run hist (· = x) _ (hh _)
  obtain ⟨hg', hu⟩ := run_guarded q1 (responderStart_guarded E m spk.priv ot x hx)
  refine ⟨_, _, t, es, us, rfl, rfl, hh _, q1, q2, q3, q4, ?_, ?_⟩
  · exact fun y hy => not_knows_mentions (hg'.all hy)
  · exact fun u huu y hy => not_knows_mentions (hu u (q3.subset huu) (fun _ _ => not_false) y hy)

/-! ### C64 for what is stored -/

theorem Store.applyAll_two (st : Store) (a : Addr) (k : Option Key32) (r : Rec) :
    (st.applyAll [.saveIdentity a k, .storeSession a r]).2 = false → (st.applyAll [.saveIdentity a k, .storeSession a r]).1.sessions = st.sessions := by
  simp only [Store.applyAll, Store.apply]
  cases r.toStruct <;> simp

/-- An Encrypt that does not succeed leaves all stored sessions as they were. -/
theorem Store.encrypt_unsuccessful {E : Env} {st st' : Store} {a : Addr} {pt : Bytes} {res : Res CipherMsg} (h : st.encrypt E a pt = (res, st'))
    (hn : res.isOk = false) : st'.sessions = st.sessions := by
  simp only [Store.encrypt, Store.encryptTrace] at h
  cases hl : st.load a with
  | err e => rw [hl] at h; cases h; rfl
  | panic => rw [hl] at h; cases h; rfl
  | ok r =>
    simp only [hl, encryptRec] at h
    cases he : encryptState E r.state pt with
    | mk x s' =>
      rw [he] at h
      cases x with
      | err e => cases h; rfl
      | panic => cases h; rfl
      | ok cm =>
        simp only [finish] at h
        have h2 := Store.applyAll_two st a s'.remoteIdentity (r.set r.cur s')
        generalize st.applyAll [.saveIdentity a s'.remoteIdentity, .storeSession a (r.set r.cur s')] = y at h h2
        obtain ⟨y1, y2⟩ := y
        cases y2 with
        | true => cases h; simp [Res.isOk] at hn
        | false => cases h; exact h2 rfl

/-- So does a Decrypt that does not succeed. -/
theorem Store.decrypt_unsuccessful {E : Env} {st st' : Store} {pos pos' : Nat} {a : Addr} {m : SignalMsg} {res : Res (Bytes × MsgKeys)}
    (h : st.decrypt E pos a m = (res, st', pos')) (hn : res.isOk = false) : st'.sessions = st.sessions := by
  simp only [Store.decrypt, Store.decryptTrace] at h
  cases hs : st.sessions a with
  | none => rw [hs] at h; cases h; exact rfl
  | some s0 =>
    simp only [hs] at h
    cases hl : st.load a with
    | err e => rw [hl] at h; cases h; rfl
    | panic => rw [hl] at h; cases h; rfl
    | ok r =>
      simp only [hl, decryptRec] at h
      cases he : decryptWithRecord E pos r m with
      | mk x y =>
        obtain ⟨r', p'⟩ := y
        rw [he] at h
        cases x with
        | err e => cases h; rfl
        | panic => cases h; rfl
        | ok x =>
          simp only [finish] at h
          have h2 := Store.applyAll_two st a r'.state.remoteIdentity r'
          generalize st.applyAll [.saveIdentity a r'.state.remoteIdentity, .storeSession a r'] = y at h h2
          obtain ⟨y1, y2⟩ := y
          cases y2 with
          | true => cases h; simp [Res.isOk] at hn
          | false => cases h; exact h2 rfl

/-- All that can happen to a stored session with `a` short of setting up another one: successful and failing calls for `a`, and anything
else that leaves what is stored for `a` alone (calls for other peers, prekeys, identities). -/
inductive StoreHistory (E : Env) (a : Addr) (st0 : Store) : Store → List Event → Prop
  | start : StoreHistory E a st0 st0 []
  | sent {st st' evs pt cm} : StoreHistory E a st0 st evs → st.encrypt E a pt = (.ok cm, st') → StoreHistory E a st0 st' (evs ++ [.sent pt cm])
  | received {st st' evs pos pos' m pt mk} : StoreHistory E a st0 st evs → st.decrypt E pos a m = (.ok (pt, mk), st', pos') →
      StoreHistory E a st0 st' (evs ++ [.received m pt mk])
  | failedEncrypt {st st' evs pt res} : StoreHistory E a st0 st evs → st.encrypt E a pt = (res, st') → res.isOk = false → StoreHistory E a st0 st' evs
  | failedDecrypt {st st' evs pos pos' m res} : StoreHistory E a st0 st evs → st.decrypt E pos a m = (res, st', pos') → res.isOk = false →
      StoreHistory E a st0 st' evs
  | other {st st' evs} : StoreHistory E a st0 st evs → st'.sessions a = st.sessions a → StoreHistory E a st0 st' evs

theorem load_congr {st st' : Store} {a : Addr} (h : st'.sessions a = st.sessions a) : st'.load a = st.load a := by
  simp only [Store.load, h]

theorem prevStates_nil {r : Rec} (h : r.prevStates = []) : r.prev = [] := by
  simpa [Rec.prevStates] using h

/-- What is stored follows a history of the session state. -/
theorem storeHistory_history {E : Env} {a : Addr} {st0 st : Store} {evs : List Event} (h : StoreHistory E a st0 st evs) {r0 : Rec}
    (hl : st0.load a = .ok r0) (hp : r0.prevStates = []) :
    ∃ r, st.load a = .ok r ∧ r.prevStates = [] ∧ History E r0.state r.state evs := by
  induction h with
  | start => exact ⟨r0, hl, hp, .start⟩
  | sent _ he ih =>
    obtain ⟨r, h1, h2, h3⟩ := ih
    obtain ⟨r', s', g1, g2, g3, -⟩ := Store.encrypt_ok he
    rw [h1] at g1; cases g1
    refine ⟨_, g3, ?_, ?_⟩
    · rw [ofStates_prev]; simp [Rec.prevStates, Rec.set, prevStates_nil h2]
    · rw [ofStates_state]; exact .sent h3 g2
  | @received st st' evs pos pos' m pt mk _ hd ih =>
    obtain ⟨r, h1, h2, h3⟩ := ih
    obtain ⟨r1, r', g1, -, g2, g3, -⟩ := Store.decrypt_ok hd
    rw [h1] at g1; cases g1
    rw [decryptWithRecord_single (prevStates_nil h2)] at g2
    simp only [Prod.mk.injEq] at g2
    have hdec : decryptWithState E (E.rng pos) r.state m = (.ok (pt, mk), r'.state, (decryptWithState E (E.rng pos) r.state m).2.2) := by
      refine Prod.ext ?_ (Prod.ext ?_ rfl)
      · have h5 := g2.1
        cases hy : (decryptWithState E (E.rng pos) r.state m).1 with
        | err e => rw [hy] at h5; simp at h5
        | panic => rw [hy] at h5; simp at h5
        | ok y => rw [hy] at h5; simp only at h5; exact h5
      · rw [← g2.2.1]; simp [Rec.state, Rec.set]
    refine ⟨_, g3, ?_, ?_⟩
    · rw [ofStates_prev, ← g2.2.1]; simp [Rec.prevStates, Rec.set, prevStates_nil h2]
    · rw [ofStates_state]
      exact .received h3 hdec
  | failedEncrypt _ he hn ih =>
    obtain ⟨r, h1, h2, h3⟩ := ih
    exact ⟨r, by rw [load_congr (congrFun (Store.encrypt_unsuccessful he hn) a)]; exact h1, h2, h3⟩
  | failedDecrypt _ he hn ih =>
    obtain ⟨r, h1, h2, h3⟩ := ih
    exact ⟨r, by rw [load_congr (congrFun (Store.decrypt_unsuccessful he hn) a)]; exact h1, h2, h3⟩
  | other _ hs ih =>
    obtain ⟨r, h1, h2, h3⟩ := ih
    exact ⟨r, by rw [load_congr hs]; exact h1, h2, h3⟩

/-- **C64 (stored sessions).** The same for what a serialising store holds, for a session without archived states: whoever steals the store
after any sequence of calls cannot compute the keys of the messages sent and received in it. -/
theorem C64_stored (E : Env) (a : Addr) (st0 st : Store) (r0 : Rec) (evs : List Event) (hl : st0.load a = .ok r0) (hp : r0.prevStates = [])
    (hi : Initialised r0.state) (h : StoreHistory E a st0 st evs) :
    ∃ r t0 t es us, st.load a = .ok r ∧ r.prevStates = [] ∧ SymHolds E.C.H r0.state t0 ∧ Fresh t0 ∧
      Run (fun _ => False) t0 t es ∧ SymHolds E.C.H r.state t ∧ us.Sublist es ∧ List.Forall₂ (Event.uses E) evs us ∧
      ∀ u ∈ us, ∀ x ∈ [u.keys.cipher, u.keys.mac, u.keys.iv], Sym.Knows (· ∈ t0.secrets) x ∧ ¬ Sym.Knows (· ∈ t.secrets) x := by
  obtain ⟨r, h1, h2, h3⟩ := storeHistory_history h hl hp
  obtain ⟨t0, k1, k2⟩ := C64_applies E.C.H r0.state hi
  obtain ⟨t, es, us, g⟩ := C64_forward_secrecy E r0.state r.state evs t0 k1 k2 h3
  exact ⟨r, t0, t, es, us, h1, h2, k1, k2, g⟩

theorem SymHolds.initialised {H : Bytes → Bytes → Bytes} {s : SState} {t : State} (h : SymHolds H s t) : Initialised s := by
  obtain ⟨sc, h1, -, h2⟩ := h.send
  refine ⟨by rw [h.root]; simp, ⟨sc, h1, h2⟩, ?_⟩
  intro c hc k hk
  have : ∀ (l : List Chain) (lt : List ChainTerms), List.Forall₂ (ChainIs H) l lt → c ∈ l → ∃ ct, ChainIs H c ct := by
    intro l lt hl
    induction hl with
    | nil => simp
    | cons hx _ ih =>
      intro hc
      rcases List.mem_cons.1 hc with rfl | hc
      · exact ⟨_, hx⟩
      · exact ih hc
  obtain ⟨ct, hct⟩ := this _ _ h.recv hc
  have : ∀ (l : List MsgKeys) (lt : List MsgTerms), List.Forall₂ (KeysAre H) l lt → k ∈ l → ∃ kt, KeysAre H k kt := by
    intro l lt hl
    induction hl with
    | nil => simp
    | cons hx _ ih =>
      intro hc
      rcases List.mem_cons.1 hc with rfl | hc
      · exact ⟨_, hx⟩
      · exact ih hc
  obtain ⟨kt, hkt⟩ := this _ _ hct.skipped hk
  rw [hkt.iv]
  simp; omega

/-- Sessions are initialised when they are set up and stay so. -/
theorem C64_initialised (E : Env) :
    (∀ (st st' : Store) (pos pos' : Nat) (a : Addr) (b : Bundle), st.processBundle E pos a b = (.ok (), st', pos') →
      ∃ r, st'.load a = .ok r ∧ Initialised r.state) ∧
    (∀ (st st' : Store) (pos pos' : Nat) (a : Addr) (m : PreKeyMsg) (x : Bytes × MsgKeys), st.sessions a = none →
      st.decryptPreKey E pos a m = (.ok x, st', pos') → ∃ r, st'.load a = .ok r ∧ Initialised r.state) ∧
    (∀ (s s' : SState) (evs : List Event), Initialised s → History E s s' evs → Initialised s') := by
  have h3 : ∀ (s s' : SState) (evs : List Event), Initialised s → History E s s' evs → Initialised s' := by
    intro s s' evs hi h
    obtain ⟨t0, k1, -⟩ := C64_applies E.C.H s hi
    obtain ⟨t, es, us, -, g, -⟩ := history_run h (fun _ => False) t0 k1
    exact g.initialised
  refine ⟨?_, ?_, h3⟩
  · intro st st' pos pos' a b h
    obtain ⟨r, spk, rb, rr, h1, -, -, -, h2⟩ := C66_initiator E st st' pos pos' a b h
    obtain ⟨D, d, t0, t, es, us, -, -, -, hh, -⟩ := h2 (E.C.dh spk E.identity.priv).bytes (by simp [initiatorDhs]) r.state [] .start
    exact ⟨r, h1, hh.initialised⟩
  · intro st st' pos pos' a m x hn h
    obtain ⟨r, s0, spk, ot, h1, -, -, h2, h4⟩ := C66_responder E st st' pos pos' a m x hn h
    obtain ⟨D, t0, t, es, us, -, -, -, -, hh, -⟩ := h4 (E.C.dh m.identityKey spk.priv).bytes (by simp [responderDhs]) _ _ h2
    exact ⟨r, h1, hh.initialised⟩

/-! ### Archived states that are not used -/

theorem load_cur_notMem {st : Store} {a : Addr} {r : Rec} (h : st.load a = .ok r) : r.cur ∉ r.prev := by
  unfold Store.load at h
  split at h
  · simp only [Res.ok.injEq] at h; subst h; simp [Rec.new]
  · split at h
    · simp only [Res.ok.injEq] at h
      subst h
      rename_i hr
      unfold Rec.ofStruct at hr
      revert hr
      cases seqRes _ with
      | err e => simp
      | panic => simp
      | ok ps =>
        simp only [Res.bind_ok]
        cases SState.ofStruct _ with
        | err e => simp
        | panic => simp
        | ok s => simp only [Res.map_ok, Res.ok.injEq]; rintro rfl; simp [Rec.ofStates]
    · cases h

theorem prevStates_set_cur {r : Rec} (h : r.cur ∉ r.prev) (s' : SState) : (r.set r.cur s').prevStates = r.prevStates := by
  simp only [Rec.prevStates, Rec.set]
  refine List.map_congr_left ?_
  intro x hx
  have : x ≠ r.cur := fun e => h (e ▸ hx)
  simp [this]

/-- As `StoreHistory`, for a session that may have archived states: all messages are decrypted by the current state. -/
inductive CurrentHistory (E : Env) (a : Addr) (st0 : Store) : Store → List Event → Prop
  | start : CurrentHistory E a st0 st0 []
  | sent {st st' evs pt cm} : CurrentHistory E a st0 st evs → st.encrypt E a pt = (.ok cm, st') → CurrentHistory E a st0 st' (evs ++ [.sent pt cm])
  | received {st st' evs pos pos' m pt mk r} : CurrentHistory E a st0 st evs → st.decrypt E pos a m = (.ok (pt, mk), st', pos') →
      st.load a = .ok r → (decryptWithState E (E.rng pos) r.state m).1.isOk = true → CurrentHistory E a st0 st' (evs ++ [.received m pt mk])
  | failedEncrypt {st st' evs pt res} : CurrentHistory E a st0 st evs → st.encrypt E a pt = (res, st') → res.isOk = false → CurrentHistory E a st0 st' evs
  | failedDecrypt {st st' evs pos pos' m res} : CurrentHistory E a st0 st evs → st.decrypt E pos a m = (res, st', pos') → res.isOk = false →
      CurrentHistory E a st0 st' evs
  | other {st st' evs} : CurrentHistory E a st0 st evs → st'.sessions a = st.sessions a → CurrentHistory E a st0 st' evs

theorem currentHistory_history {E : Env} {a : Addr} {st0 st : Store} {evs : List Event} (h : CurrentHistory E a st0 st evs) {r0 : Rec}
    (hl : st0.load a = .ok r0) : ∃ r, st.load a = .ok r ∧ r.prevStates = r0.prevStates ∧ History E r0.state r.state evs := by
  induction h with
  | start => exact ⟨r0, hl, rfl, .start⟩
  | sent _ he ih =>
    obtain ⟨r, h1, h2, h3⟩ := ih
    obtain ⟨r', s', g1, g2, g3, -⟩ := Store.encrypt_ok he
    rw [h1] at g1; cases g1
    refine ⟨_, g3, ?_, ?_⟩
    · rw [ofStates_prev, ← h2]; exact prevStates_set_cur (load_cur_notMem h1) _
    · rw [ofStates_state]; exact .sent h3 g2
  | @received st st' evs pos pos' m pt mk r _ hd hr hok ih =>
    obtain ⟨r1, h1, h2, h3⟩ := ih
    rw [hr] at h1; cases h1
    obtain ⟨r1, r', g1, -, g2, g3, -⟩ := Store.decrypt_ok hd
    rw [hr] at g1; cases g1
    cases hs : decryptWithState E (E.rng pos) r.state m with
    | mk y z =>
      obtain ⟨s', d⟩ := z
      rw [hs] at hok
      cases y with
      | err e => simp [Res.isOk] at hok
      | panic => simp [Res.isOk] at hok
      | ok y =>
        have he : decryptWithRecord E pos r m = (.ok y, r.set r.cur s', bump pos d) := by
          have hs' : decryptWithState E (E.rng pos) (r.heap r.cur) m = (.ok y, s', d) := hs
          unfold decryptWithRecord
          rw [hs']
        rw [he] at g2
        simp only [Prod.mk.injEq, Res.ok.injEq] at g2
        obtain ⟨rfl, rfl, -⟩ := g2
        refine ⟨_, g3, ?_, ?_⟩
        · rw [ofStates_prev, ← h2]; exact prevStates_set_cur (load_cur_notMem hr) _
        · rw [ofStates_state]
          have : (r.set r.cur s').state = s' := by simp [Rec.state, Rec.set]
          rw [this]
          exact .received h3 hs
  | failedEncrypt _ he hn ih =>
    obtain ⟨r, h1, h2, h3⟩ := ih
    exact ⟨r, by rw [load_congr (congrFun (Store.encrypt_unsuccessful he hn) a)]; exact h1, h2, h3⟩
  | failedDecrypt _ he hn ih =>
    obtain ⟨r, h1, h2, h3⟩ := ih
    exact ⟨r, by rw [load_congr (congrFun (Store.decrypt_unsuccessful he hn) a)]; exact h1, h2, h3⟩
  | other _ hs ih =>
    obtain ⟨r, h1, h2, h3⟩ := ih
    exact ⟨r, by rw [load_congr hs]; exact h1, h2, h3⟩

theorem label_state (H : Bytes → Bytes → Bytes) (s : SState) (h : Initialised s) (n : Nat) : ∃ m t, SymHolds H s t ∧ Lab n m t.secrets := by
  obtain ⟨root, hr⟩ := Option.ne_none_iff_exists'.1 h.root
  obtain ⟨sc, hsc, hm⟩ := h.send
  obtain ⟨m, lt, h1, h2⟩ := label_chains H s.receiverChains h.ivs (n + 1 + 1)
  exact ⟨m, ⟨.atom [n] root, .atom [n + 1] sc.chainKey.key, lt⟩, ⟨hr, ⟨sc, hsc, rfl, hm⟩, h1⟩,
    ((Lab.one n root).append (Lab.one (n + 1) sc.chainKey.key)).append h2⟩

theorem label_states (H : Bytes → Bytes → Bytes) (l : List SState) (h : ∀ s ∈ l, Initialised s) (n : Nat) :
    ∃ m ts, List.Forall₂ (SymHolds H) l ts ∧ Lab n m (ts.flatMap State.secrets) := by
  induction l generalizing n with
  | nil => exact ⟨n, [], .nil, ⟨Nat.le_refl _, by simp, by simp⟩⟩
  | cons s l ih =>
    obtain ⟨m, t, h1, h2⟩ := label_state H s (h s (by simp)) n
    obtain ⟨m', ts, g1, g2⟩ := ih (fun s hs => h s (by simp [hs])) m
    exact ⟨m', t :: ts, .cons h1 g1, h2.append g2⟩

/-- **C64 (stored sessions with archived states).** As long as messages are decrypted by the current state, archived states do no harm: whoever
steals the whole stored record, with all its archived states, cannot compute the keys of the messages sent and received. -/
theorem C64_stored_archive (E : Env) (a : Addr) (st0 st : Store) (r0 : Rec) (evs : List Event) (hl : st0.load a = .ok r0)
    (hi : ∀ s ∈ r0.state :: r0.prevStates, Initialised s) (h : CurrentHistory E a st0 st evs) :
    ∃ (r : Rec) (t0 t : State) (ts : List State) (es us : List Use), st.load a = .ok r ∧ SymHolds E.C.H r0.state t0 ∧
      List.Forall₂ (SymHolds E.C.H) r0.prevStates ts ∧ Fresh t0 ∧
      Run (fun _ => False) t0 t es ∧ SymHolds E.C.H r.state t ∧ List.Forall₂ (SymHolds E.C.H) r.prevStates ts ∧
      us.Sublist es ∧ List.Forall₂ (Event.uses E) evs us ∧
      ∀ u ∈ us, ∀ x ∈ [u.keys.cipher, u.keys.mac, u.keys.iv],
        Sym.Knows (· ∈ t0.secrets) x ∧ ¬ Sym.Knows (fun y => y ∈ t.secrets ∨ ∃ p ∈ ts, y ∈ p.secrets) x := by
  obtain ⟨r, h1, h2, h3⟩ := currentHistory_history h hl
  obtain ⟨m, t0, k1, k2⟩ := label_state E.C.H r0.state (hi _ (by simp)) 0
  obtain ⟨m', ts, k3, k4⟩ := label_states E.C.H r0.prevStates (fun s hs => hi s (by simp [hs])) m
  have hlab := k2.append k4
  have hat : ∀ t ∈ t0.secrets ++ ts.flatMap State.secrets, ∃ l v, t = .atom l v ∧ l ≠ [] := by
    intro t ht
    obtain ⟨k, v, e, -⟩ := hlab.atoms t ht
    exact ⟨[k], v, e, by simp⟩
  have ha : Anti (t0.secrets ++ ts.flatMap State.secrets) := anti_of_atoms hat hlab.distinct
  obtain ⟨t, es, us, g1, g2, g3, g4⟩ := history_run h3 (fun _ => False) t0 k1
  refine ⟨r, t0, t, ts, es, us, h1, k1, k3, ⟨fun t ht => hat t (List.mem_append_left _ ht), k2.distinct⟩, g1, g2, by rw [h2]; exact k3, g3, g4, ?_⟩
  intro u hu x hx
  have hm : x ∈ es.flatMap fun u => u.keys.list := List.mem_flatMap.2 ⟨u, g3.subset hu, hx⟩
  refine ⟨(run_known (K := (· ∈ t0.secrets)) (fun v hv => hv.elim) g1 (fun t ht => .given ht)).2 x hm, ?_⟩
  have hs := (run_safe g1 (ts.flatMap State.secrets) ha).not_known ha hm
  intro hk
  apply hs
  have key : ∀ z, Sym.Knows (fun y => y ∈ t.secrets ∨ ∃ p ∈ ts, y ∈ p.secrets) z → Sym.Knows (· ∈ t.secrets ++ ts.flatMap State.secrets) z := by
    intro z hz
    induction hz with
    | given h => exact .given (List.mem_append.2 (h.imp _root_.id List.mem_flatMap.2))
    | pub v => exact .pub v
    | hash _ _ i1 i2 => exact .hash i1 i2
    | cat _ _ i1 i2 => exact .cat i1 i2
    | fst _ i => exact .fst i
    | snd _ i => exact .snd i
  exact key x hk

set_option maxRecDepth 100000 in
/-- **C64 is false for sessions with archived states** (the duplicate of C18): after a message was decrypted, the stored record holds an
archived copy of the session whose chain key yields the message's keys. -/
theorem C64_archived_false : ∃ (E : Env) (st st' : Store) (pos pos' : Nat) (a : Addr) (m : SignalMsg) (x : Bytes × MsgKeys) (r : Rec),
    st.decrypt E pos a m = (.ok x, st', pos') ∧ st'.load a = .ok r ∧ ∃ p ∈ r.prevStates, ∃ c ∈ p.receiverChains, x.2 = c.chainKey.msgKeys E.C :=
  ⟨Toy.bobEnv, Toy.bob5, Toy.bob6, 5, Toy.decM4.2.2, Toy.alice, Toy.msg4, Toy.opened Toy.decM4.1, Toy.recOf Toy.bob6 Toy.alice,
    by
      have h1 : Toy.decM4.1 = .ok (Toy.opened Toy.decM4.1) := by decide +kernel
      show Toy.decM4 = _
      rw [← h1]; rfl,
    by
      have h : (Toy.bob6.load Toy.alice).isOk = true := by decide +kernel
      unfold Toy.recOf
      cases hl : Toy.bob6.load Toy.alice with
      | ok r => rfl
      | err e => rw [hl] at h; simp [Res.isOk] at h
      | panic => rw [hl] at h; simp [Res.isOk] at h,
    by decide +kernel⟩

/-! ### Non-vacuity -/

section
open Toy
set_option maxRecDepth 100000

/-- Alice's toy session after the bundle has no archived states and is initialised; she sends two messages and receives a reply with a new
ratchet key: a history of three events to which C64 applies. -/
example : ∃ r0 st evs, alice1.load bob = .ok r0 ∧ r0.prevStates = [] ∧ Initialised r0.state ∧ StoreHistory aliceEnv bob alice1 st evs ∧ evs.length = 3 := by
  have h1 : ∃ cm, enc1.1 = .ok cm := by
    have : enc1.1.isOk = true := by decide +kernel
    cases h : enc1.1 <;> simp [h, Res.isOk] at this ⊢
  have h2 : ∃ cm, enc2.1 = .ok cm := by
    have : enc2.1.isOk = true := by decide +kernel
    cases h : enc2.1 <;> simp [h, Res.isOk] at this ⊢
  have h3 : ∃ x, decA1.1 = .ok x := by
    have : decA1.1.isOk = true := by decide +kernel
    cases h : decA1.1 <;> simp [h, Res.isOk] at this ⊢
  obtain ⟨c1, h1⟩ := h1
  obtain ⟨c2, h2⟩ := h2
  obtain ⟨⟨pt, mk⟩, h3⟩ := h3
  have hb : (emptyStore.processBundle aliceEnv 0 bob bundle).1 = .ok () := by decide +kernel
  obtain ⟨r, hr, hi⟩ := (C64_initialised aliceEnv).1 emptyStore alice1 0 _ bob bundle (Prod.ext hb rfl)
  have hp : (recOf alice1 bob).prev = [] := by decide +kernel
  have hrr : recOf alice1 bob = r := by simp [recOf, hr]
  refine ⟨r, alice4, _, hr, ?_, hi,
    .received (.sent (.sent .start (st' := alice2) (Prod.ext h1 rfl)) (st' := alice3) (Prod.ext h2 rfl)) (pos := 2) (m := reply1) (pos' := _)
      (Prod.ext h3 rfl), rfl⟩
  rw [← hrr]
  simp [Rec.prevStates, hp]

theorem initialised_of {s : SState} (h : s.rootKey.isSome = true ∧ (s.senderChain.map fun c => c.msgKeys.length) = some 0 ∧
    (s.receiverChains.all fun c => c.msgKeys.all fun k => k.iv.length ≤ 16) = true) : Initialised s := by
  obtain ⟨h1, h2, h3⟩ := h
  refine ⟨?_, ?_, ?_⟩
  · intro h; simp [h] at h1
  · cases hs : s.senderChain with
    | none => simp [hs] at h2
    | some sc => exact ⟨sc, rfl, by simpa [hs] using h2⟩
  · intro c hc k hk
    have := List.all_eq_true.1 h3 c hc
    simpa using List.all_eq_true.1 this k hk

/-- Bob's toy record after the second bundle has archived states; he sends a message with the current one. -/
example : ∃ r0 st cm, bob5.load alice = .ok r0 ∧ r0.prevStates ≠ [] ∧ (∀ s ∈ r0.state :: r0.prevStates, Initialised s) ∧
    CurrentHistory bobEnv alice bob5 st [.sent [1] cm] := by
  have hl : bob5.load alice = .ok (recOf bob5 alice) := by
    have h : (bob5.load alice).isOk = true := by decide +kernel
    unfold recOf
    cases hl : bob5.load alice with
    | ok r => rfl
    | err e => rw [hl] at h; simp [Res.isOk] at h
    | panic => rw [hl] at h; simp [Res.isOk] at h
  have h2 : ∃ cm, (bob5.encrypt bobEnv alice [1]).1 = .ok cm := by
    have : (bob5.encrypt bobEnv alice [1]).1.isOk = true := by decide +kernel
    cases h : (bob5.encrypt bobEnv alice [1]).1 <;> simp [h, Res.isOk] at this ⊢
  obtain ⟨cm, h2⟩ := h2
  have h3 : ((recOf bob5 alice).state :: (recOf bob5 alice).prevStates).all (fun s => decide (s.rootKey.isSome = true ∧
      (s.senderChain.map fun c => c.msgKeys.length) = some 0 ∧
      (s.receiverChains.all fun c => c.msgKeys.all fun k => k.iv.length ≤ 16) = true)) = true := by decide +kernel
  have h4 : (recOf bob5 alice).prevStates.length ≠ 0 := by decide +kernel
  exact ⟨_, _, cm, hl, fun h => h4 (by simp [h]), fun s hs => initialised_of (of_decide_eq_true (List.all_eq_true.1 h3 s hs)),
    .sent .start (Prod.ext h2 rfl)⟩
/-- The reply makes Alice perform a ratchet step with fresh randomness: the situation of C65. -/
example : (decryptWithState aliceEnv (aliceEnv.rng 2) (stateOf alice3 bob) reply1).2.2 = true ∧ aliceEnv.rng 2 ≠ none := by decide +kernel

/-- C66's hypotheses: both sides of the toy session. -/
example : (emptyStore.processBundle aliceEnv 0 bob bundle).1 = .ok () ∧ bobStore.sessions alice = none ∧ dec1.1.isOk = true := by
  refine ⟨by decide +kernel, rfl, by decide +kernel⟩
end

end Verif
