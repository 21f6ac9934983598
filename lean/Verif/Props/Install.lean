import Verif.Model.Install
import Verif.Props.KeyGen
import Verif.Props.Conversation
/-
C102: from nothing to a conversation.  Two users install the library, one publishes a bundle, the other processes it, and they talk.
-/
namespace Verif
open Talk

/-- Trust on first use: a key is accepted if it is the one known for the address or if none is known. -/
def Env.FirstUse (E : Env) : Prop := ∀ ids a k, ids a = none ∨ ids a = some k → E.trusted ids a k = true

/-- A key pair as the library generates them. -/
def IdKeyPair.Proper (C : Crypto) (k : IdKeyPair) : Prop := k.pub = C.basePub k.priv ∧ IsClamped k.priv

theorem generateIdPair_ok {C : Crypto} {d : Option Key32} {k : IdKeyPair} (h : generateIdPair C d = .ok k) :
    k.Proper C ∧ d.map (fun r => C.basePub (clamp r)) = some k.pub := by
  cases d with
  | none => simp [generateIdPair] at h
  | some r =>
    simp only [generateIdPair, Res.ok.injEq] at h
    subst h
    exact ⟨⟨rfl, clamp_isClamped r⟩, rfl⟩

/-- What a loop of the prekey generation returns: consecutive numbers and proper key pairs. -/
theorem generatePreKeysLoop_inv {C : Crypto} {rng : Nat → Option Key32} : ∀ {fuel : Nat} {i : Int} {pos : Nat} {acc l : List PreKey},
    generatePreKeysLoop C rng fuel i pos acc = .ok l → ∃ l', l = acc ++ l' ∧ l'.length = fuel ∧
      ∀ (n : Nat) p, l'[n]? = some p → p.id = OptU32.new (UInt32.ofInt (i + n)) ∧ p.pair.Proper C
  | 0, i, pos, acc, l, h => by
    simp only [generatePreKeysLoop, Res.ok.injEq] at h
    exact ⟨[], by simp [h], rfl, by simp⟩
  | fuel + 1, i, pos, acc, l, h => by
    rw [generatePreKeysLoop] at h
    cases hg : generateIdPair C (rng pos) with
    | err e => simp [hg] at h
    | panic => simp [hg] at h
    | ok kp =>
      simp only [hg] at h
      obtain ⟨l', h1, h2, h3⟩ := generatePreKeysLoop_inv h
      refine ⟨newPreKey (UInt32.ofInt i) kp :: l', by simp [h1], by simp [h2], ?_⟩
      intro n p hp
      cases n with
      | zero =>
        simp only [List.getElem?_cons_zero, Option.some.injEq] at hp
        subst hp
        exact ⟨by simp [PreKey.id, newPreKey], (generateIdPair_ok hg).1⟩
      | succ n =>
        simp only [List.getElem?_cons_succ] at hp
        obtain ⟨h4, h5⟩ := h3 n p hp
        exact ⟨by rw [h4]; congr 2; omega, h5⟩

theorem storePreKeys_notin : ∀ (l : List PreKey) (f : UInt32 → Option IdKeyPair) (id : UInt32), (∀ p ∈ l, p.id.value ≠ id) → storePreKeys f l id = f id
  | [], _, _, _ => rfl
  | p :: l, f, id, h => by
    rw [storePreKeys, storePreKeys_notin l _ id fun q hq => h q (List.mem_cons_of_mem _ hq)]
    simp [upd, (h p (List.mem_cons_self ..)).symm]

/-- Prekeys with different numbers are all in the store. -/
theorem storePreKeys_in : ∀ (l : List PreKey) (f : UInt32 → Option IdKeyPair), (l.map (·.id.value)).Nodup → ∀ p ∈ l, storePreKeys f l p.id.value = some p.pair
  | [], _, _, _, h => by simp at h
  | q :: l, f, hn, p, hp => by
    simp only [List.map_cons, List.nodup_cons, List.mem_map, not_exists, not_and] at hn
    rw [storePreKeys]
    rcases List.mem_cons.1 hp with rfl | hp
    · rw [storePreKeys_notin l _ _ fun q hq => hn.1 q hq]
      simp [upd, newPreKey]
    · exact storePreKeys_in l _ hn.2 p hp

/-- What a successful installation leaves. -/
structure Installation.Sound (I : Installation) (E : Env) (start count : Int) (spkId : UInt32) (pos : Nat) : Prop where
  /-- only the identity is new in the configuration -/
  env : I.env = { E with identity := I.env.identity }
  identity : I.env.identity.Proper E.C
  /-- the prekeys have the numbers from `start` to `count`, and are all in the store -/
  number : (I.preKeys.length : Int) = max 0 (count - start + 1)
  ids : ∀ (n : Nat) p, I.preKeys[n]? = some p → p.id = OptU32.new (UInt32.ofInt (start + n))
  proper : ∀ p ∈ I.preKeys, p.pair.Proper E.C
  stored : count - start < 2 ^ 32 → ∀ p ∈ I.preKeys, I.store.preKeys p.id.value = some p.pair
  /-- the signed prekey is in the store, and its signature verifies with the identity key -/
  signedId : I.signedPreKey.struct.id = spkId
  signedProper : I.signedPreKey.pair.Proper E.C
  signedStored : I.store.signedPreKeys spkId = some I.signedPreKey.pair
  signed : E.C.SigLaw → E.C.verify I.env.identity.pub (serPub I.signedPreKey.pair.pub) I.signedPreKey.signature = true
  /-- there are no sessions and no known identities -/
  noSessions : ∀ a, I.store.sessions a = none
  noIdentities : ∀ a, I.store.identities a = none
  /-- the signed prekey was drawn before the present position of the random source -/
  advanced : pos ≤ I.pos
  drawn : ∃ q, pos ≤ q ∧ q < I.pos ∧ E.drawn q = some I.signedPreKey.pair.pub

/-- **C102 (installing).** If the calls of an installation succeed, the records to be published are in the stores, the private keys belong to the public keys, and the signature
verifies. -/
theorem C102_installation {E : Env} {start count : Int} {spkId : UInt32} {rand : Arr 64} {now : Int64} {pos : Nat} {I : Installation}
    (h : install E start count spkId rand now pos = .ok I) : I.Sound E start count spkId pos := by
  unfold install at h
  cases h1 : generateIdentityKeyPair E.C (E.rng pos) with
  | err e => simp [h1] at h
  | panic => simp [h1] at h
  | ok ident =>
    cases h2 : generatePreKeys E.C E.rng start count (pos + 1) with
    | err e => simp [h1, h2] at h
    | panic => simp [h1, h2] at h
    | ok pks =>
      cases h3 : generateSignedPreKey E.C (E.rng (pos + 1 + pks.length)) rand now ident.priv spkId with
      | err e => simp [h1, h2, h3] at h
      | panic => simp [h1, h2, h3] at h
      | ok spk =>
        simp only [h1, h2, h3, Res.ok.injEq] at h
        subst h
        obtain ⟨hid, -⟩ := generateIdPair_ok h1
        obtain ⟨l', hl, hlen, hnum⟩ := generatePreKeysLoop_inv h2
        simp only [List.nil_append] at hl
        subst hl
        have hs : ∃ kp, generateIdPair E.C (E.rng (pos + 1 + pks.length)) = .ok kp ∧ spk = newSignedPreKey spkId now kp (E.C.sign ident.priv (serPub kp.pub) rand) := by
          unfold generateSignedPreKey at h3
          cases hg : generateIdPair E.C (E.rng (pos + 1 + pks.length)) with
          | err e => simp [hg] at h3
          | panic => simp [hg] at h3
          | ok kp =>
            simp only [hg, Res.map_ok, Res.ok.injEq] at h3
            exact ⟨kp, rfl, h3.symm⟩
        obtain ⟨kp, hkp, hspk⟩ := hs
        obtain ⟨hkp1, hkp2⟩ := generateIdPair_ok hkp
        refine ⟨rfl, hid, by simp only; omega, fun n p hp => (hnum n p hp).1, ?_, ?_, by simp [hspk, newSignedPreKey], by rw [hspk]; exact hkp1, ?_, ?_, fun _ => rfl, fun _ => rfl, by simp only; omega,
          ⟨pos + 1 + pks.length, by omega, Nat.lt_succ_self _, by rw [hspk]; exact hkp2⟩⟩
        · intro p hp
          obtain ⟨n, hn⟩ := List.getElem?_of_mem hp
          exact (hnum n p hn).2
        · intro hc p hp
          refine storePreKeys_in pks _ ?_ p hp
          rw [List.Nodup, List.pairwise_iff_getElem]
          intro i j hi hj hij
          simp only [List.length_map] at hi hj
          simp only [List.getElem_map]
          rw [(hnum i _ (List.getElem?_eq_getElem hi)).1, (hnum j _ (List.getElem?_eq_getElem hj)).1]
          simp only [OptU32.new]
          intro heq
          have := congrArg UInt32.toNat heq
          simp only [UInt32.ofInt, UInt32.toNat_ofNat'] at this
          omega
        · simp [upd, hspk, newSignedPreKey]
        · intro hsig
          rw [hspk]
          show E.C.verify ident.pub _ _ = true
          rw [hid.1]
          exact hsig _ _ _ hid.2

/-- With a user he has no session with, `ProcessBundle` of a bundle with a trusted key and a good signature succeeds if the random source works. -/
theorem processBundle_succeeds {E : Env} {st : Store} {pos : Nat} {a : Addr} {b : Bundle} {spk : Key32} (hnew : st.sessions a = none)
    (ht : E.trusted st.identities a b.identityKey = true) (hspk : b.signedPreKeyPublic = some spk) (hv : E.C.verify b.identityKey (serPub spk) b.signature = true)
    (hr : E.rng pos ≠ none) (hr' : E.rng (pos + 1) ≠ none) : ∃ st', st.processBundle E pos a b = (.ok (), st', pos + 2) := by
  have hc : checkBundle E st.identities a b = .ok spk := by simp [checkBundle, ht, hspk, hv]
  have hl : st.load a = .ok Rec.new := by simp [Store.load, hnew]
  obtain ⟨r1, h1⟩ := Option.ne_none_iff_exists'.1 hr
  obtain ⟨r2, h2⟩ := Option.ne_none_iff_exists'.1 hr'
  obtain ⟨d, hd, -⟩ := calculateSenderSession_ok E.C ⟨E.identity, clamp r1, b.identityKey, spk, b.preKeyPublic⟩
  have hcc : ∃ s, createChain E.C d.root spk ⟨E.C.basePub (clamp r2), some (clamp r2)⟩ = .ok s := by
    obtain ⟨x, hx, -⟩ := deriveSecrets_ok E.C (E.C.dh spk (clamp r2)).bytes (some d.root) (ascii "WhisperRatchet") (n := 64) (by decide)
    simp only [createChain, hx]
    exact ⟨_, rfl⟩
  obtain ⟨s, hs⟩ := hcc
  have hb : ∃ r', buildFromBundle E pos a Rec.new b spk = (.ok (), r', pos + 2, [.storeSession a r', .saveIdentity a (some b.identityKey)]) ∧
      ∀ s ∈ r'.state :: r'.prevStates, s.Initialised := by
    refine ⟨Rec.new.set Rec.new.cur (initSenderState E Rec.new.state b spk ⟨E.C.basePub (clamp r1), some (clamp r1)⟩ ⟨E.C.basePub (clamp r2), some (clamp r2)⟩ d s), ?_, ?_⟩
    · simp only [buildFromBundle, h1, h2, generateKeyPair, hd, hs]
      simp [Rec.new]
    · intro y hy
      simp only [Rec.new, Rec.set, Rec.state, Rec.prevStates, List.map_nil, List.mem_cons, List.not_mem_nil, or_false] at hy
      subst hy
      simp [initSenderState, SState.Initialised, SState.setSenderChain, SState.addReceiverChain]
  obtain ⟨r', hb, hi⟩ := hb
  obtain ⟨str, hstr⟩ := toStruct_of_init hi
  have : (st.processBundle E pos a b).1 = .ok () ∧ (st.processBundle E pos a b).2.2 = pos + 2 := by
    simp only [Store.processBundle, Store.processBundleTrace, hc, hl, hb, finish, Store.applyAll, Store.apply, hstr, and_self]
  exact ⟨(st.processBundle E pos a b).2.1, Prod.ext this.1 (Prod.ext rfl this.2)⟩

theorem Env.GoodRandom.mono {E : Env} {lo hi lo' hi' : Nat} (h : E.GoodRandom lo hi) (h1 : lo ≤ lo') (h2 : hi' ≤ hi) : E.GoodRandom lo' hi' :=
  ⟨fun i a b => h.works i (by omega) (by omega), fun i j a b c => h.distinct i j (by omega) b (by omega)⟩

/-- **C102 (two fresh users can talk).** Alice and Bob install the library (any numbers of prekeys, any identifiers below the last-resort one), with the same primitives and the same
of the library's two serializers, trust keys on first use, and have random sources that, from the installation to the end of the conversation, work and give different keys.  Bob
publishes a bundle with any of his one-time prekeys.  Then Alice's `ProcessBundle` succeeds, and for every schedule of at most `n` sendings and deliveries afterwards the outcomes are
those the specification gives. -/
theorem C102_fresh_users_talk {C : Crypto} (hdh : C.DhLaw) (haes : C.AesLaw) (hsig : C.SigLaw) {EA EB : Env} (hCA : EA.C = C) (hCB : EB.C = C)
    (hS : Std EA.S EA.P) (hSB : EB.S = EA.S ∧ EB.P = EA.P) (htA : EA.FirstUse) (htB : EB.FirstUse)
    {startA countA startB countB : Int} {spkA spkB : UInt32} {randA randB : Arr 64} {nowA nowB : Int64} {pA pB : Nat} {IA IB : Installation}
    (hIA : install EA startA countA spkA randA nowA pA = .ok IA) (hIB : install EB startB countB spkB randB nowB pB = .ok IB)
    (n : Nat) (hrA : EA.GoodRandom pA (IA.pos + 2 + n)) (hrB : EB.GoodRandom pB (IB.pos + n))
    (hcount : countB - startB < 2 ^ 32) {pk : PreKey} (hpk : pk ∈ IB.preKeys) (hmax : pk.id.value ≠ mediumMaxValue) (device : UInt32) (addrA addrB : Addr) :
    ∃ stA' posA', IA.store.processBundle IA.env IA.pos addrB (publish IB.env device pk IB.signedPreKey) = (.ok (), stA', posA') ∧
      ∀ evs : List Talk.Event, evs.length ≤ n → evs.length < 2 ^ 32 → (∀ s t, Talk.Event.say s t ∈ evs → t.length < 2 ^ 63) → ∀ outs, Conv.start.run evs = some outs →
        All2 Matches outs (World.run (sides IA.env IB.env) (sides addrA addrB) ⟨sides ⟨stA', posA'⟩ ⟨IB.store, IB.pos⟩, []⟩ evs) := by
  have SA := C102_installation hIA
  have SB := C102_installation hIB
  have hgood : ∀ (E : Env) (idk : IdKeyPair) lo hi, E.GoodRandom lo hi → Env.GoodRandom { E with identity := idk } lo hi :=
    fun E idk lo hi h => ⟨h.works, h.distinct⟩
  have hpA := SA.advanced
  have hpB := SB.advanced
  have eA : IA.env.C = C := by rw [SA.env]; exact hCA
  have eB : IB.env.C = C := by rw [SB.env]; exact hCB
  have rA : IA.env.rng = EA.rng := by rw [SA.env]
  obtain ⟨stA', hp⟩ := processBundle_succeeds (E := IA.env) (st := IA.store) (pos := IA.pos) (a := addrB) (b := publish IB.env device pk IB.signedPreKey)
    (SA.noSessions addrB) (by rw [SA.env]; exact htA _ _ _ (.inl (SA.noIdentities addrB))) rfl
    (by rw [eA]; exact hCB ▸ SB.signed (hCB ▸ hsig)) (by rw [rA]; exact hrA.works _ hpA (by omega)) (by rw [rA]; exact hrA.works _ (by omega) (by omega))
  refine ⟨stA', _, hp, fun evs hle hn ht outs ho => ?_⟩
  refine C03_conversation hdh haes (b := publish IB.env device pk IB.signedPreKey) (spk := IB.signedPreKey.pair) (ot := pk.pair) (stA := IA.store) (posA := IA.pos) evs
    { cryptoA := eA, cryptoB := eB, serA := by rw [SA.env]; exact hS, serB := by rw [SA.env, SB.env]; exact hSB
      idA := hCA ▸ SA.identity.1, idB := hCB ▸ SB.identity.1, spkPair := hCB ▸ SB.signedProper.1, otPair := hCB ▸ (SB.proper pk hpk).1
      bIdentity := rfl, bSigned := rfl, bOneTime := rfl
      bOneTimeId := ⟨pk.id.value, ?_, hmax, SB.stored hcount pk hpk⟩
      bSignedId := ?_
      newA := SA.noSessions _, newB := SB.noSessions _, knownB := .inl (SB.noIdentities _)
      trustB := fun ids hids => by rw [SB.env]; exact htB _ _ _ hids
      processed := hp
      randA := by rw [SA.env]; exact hgood EA _ _ _ (hrA.mono (by omega) (by omega))
      randB := by rw [SB.env]; exact hgood EB _ _ _ (hrB.mono (by omega) (by omega))
      randSpk := ?_ } hn ht outs ho
  · simp [publish, PreKey.id, OptU32.new]
  · show IB.store.signedPreKeys IB.signedPreKey.struct.id = _
    rw [SB.signedId]
    exact SB.signedStored
  · intro i hi hi2 heq
    obtain ⟨q, hq0, hq, hd⟩ := SB.drawn
    have h1 : IB.env.drawn i = EB.drawn i := by rw [SB.env]; rfl
    rw [h1, ← hd] at heq
    exact hrB.distinct q i hq0 (by omega) (by omega) heq.symm

/-- **C102 (installing succeeds)** whenever the random source works for the `count - start + 3` keys that are generated (none but two when `count < start`). -/
theorem C102_install_succeeds (E : Env) (start count : Int) (spkId : UInt32) (rand : Arr 64) (now : Int64) (pos : Nat)
    (hr : ∀ i, pos ≤ i → i < pos + 2 + (count + 1 - start).toNat → E.rng i ≠ none) :
    ∃ I, install E start count spkId rand now pos = .ok I ∧ I.pos = pos + 2 + (count + 1 - start).toNat := by
  have hloop : ∀ (fuel : Nat) (i : Int) (p : Nat) (acc : List PreKey), (∀ j, p ≤ j → j < p + fuel → E.rng j ≠ none) →
      ∃ l, generatePreKeysLoop E.C E.rng fuel i p acc = .ok l ∧ l.length = acc.length + fuel := by
    intro fuel
    induction fuel with
    | zero => intro i p acc _; exact ⟨acc, rfl, rfl⟩
    | succ f ih =>
      intro i p acc h
      obtain ⟨r, hr⟩ := Option.ne_none_iff_exists'.1 (h p (by omega) (by omega))
      rw [generatePreKeysLoop]
      simp only [hr, generateIdPair]
      obtain ⟨l, h1, h2⟩ := ih (i + 1) (p + 1) (acc ++ [newPreKey (UInt32.ofInt i) ⟨E.C.basePub (clamp r), clamp r⟩]) fun j a b => h j (by omega) (by omega)
      exact ⟨l, h1, by simp at h2; omega⟩
  obtain ⟨r1, h1⟩ := Option.ne_none_iff_exists'.1 (hr pos (by omega) (by omega))
  obtain ⟨l, hl, hlen⟩ := hloop (count + 1 - start).toNat start (pos + 1) [] fun j a b => hr j (by omega) (by omega)
  simp only [List.length_nil, Nat.zero_add] at hlen
  obtain ⟨r2, h2⟩ := Option.ne_none_iff_exists'.1 (hr (pos + 1 + l.length) (by omega) (by omega))
  have hg : generatePreKeys E.C E.rng start count (pos + 1) = .ok l := hl
  refine ⟨_, by simp only [install, h1, generateIdentityKeyPair, generateIdPair, hg, generateSignedPreKey, h2, Res.map_ok]; rfl, ?_⟩
  simp only
  omega

section
open Toy

def installA := install aliceEnv 0 2 0 ⟨List.replicate 64 1, by simp⟩ 1000 0
def installB := install bobEnv 0 2 0 ⟨List.replicate 64 2, by simp⟩ 2000 0

/-- The installation, if it succeeded. -/
def okOr (x : Res Installation) : Installation :=
  match x with
  | .ok I => I
  | _ => ⟨aliceEnv, [], newSignedPreKey 0 0 (idPair 0) sig0, emptyStore, 0⟩

def freshA : Installation := okOr installA
def freshB : Installation := okOr installB

theorem freshA_ok : installA = .ok freshA := by
  obtain ⟨I, h, -⟩ := C102_install_succeeds aliceEnv 0 2 0 ⟨List.replicate 64 1, by simp⟩ 1000 0 (fun i _ _ h => by simp [aliceEnv, env] at h)
  show install _ _ _ _ _ _ _ = _
  rw [h]
  unfold freshA installA
  rw [h]
  rfl

theorem freshB_ok : installB = .ok freshB := by
  obtain ⟨I, h, -⟩ := C102_install_succeeds bobEnv 0 2 0 ⟨List.replicate 64 2, by simp⟩ 2000 0 (fun i _ _ h => by simp [bobEnv, env] at h)
  show install _ _ _ _ _ _ _ = _
  rw [h]
  unfold freshB installB
  rw [h]
  rfl

def freshPk : PreKey := freshB.preKeys.getD 0 (newPreKey 0 (idPair 0))

theorem toy_firstUse (id : UInt8) (seed : Nat) : (env id seed).FirstUse := by
  intro ids a k h
  show (match ids a with | none => true | some k' => k' == k) = true
  rcases h with h | h <;> rw [h]
  simp

set_option maxRecDepth 100000 in
/-- Non-vacuity: the toy users install the library with three one-time prekeys each (the first has the number 0, as in the README) and hold the conversation of C03. -/
theorem toy_fresh_talk : ∃ stA' posA', freshA.store.processBundle freshA.env freshA.pos Toy.bob (publish freshB.env 2 freshPk freshB.signedPreKey) = (.ok (), stA', posA') ∧
    All2 Matches [.said, .said, .said, .got [2, 2], .said, .rejected, .got [1], .got [4], .said, .got [5], .got [3], .said, .said, .got [7], .got [6]]
      (World.run (sides freshA.env freshB.env) (sides Toy.alice Toy.bob) ⟨sides ⟨stA', posA'⟩ ⟨freshB.store, freshB.pos⟩, []⟩ toyTalk) := by
  have hpA : freshA.pos = 5 := by decide +kernel
  have hpB : freshB.pos = 5 := by decide +kernel
  obtain ⟨st, p, h1, h2⟩ := C102_fresh_users_talk dhLaw aesLaw sigLaw (EA := aliceEnv) (EB := bobEnv) rfl rfl (.inl ⟨rfl, rfl⟩) ⟨rfl, rfl⟩ (toy_firstUse _ _) (toy_firstUse _ _)
    freshA_ok freshB_ok 15 (by
      refine ⟨fun i _ _ h => by simp [aliceEnv, env] at h, fun i j _ h2 h3 => ?_⟩
      have : ∀ j < 22, ∀ i < j, aliceEnv.drawn i ≠ aliceEnv.drawn j := by decide +kernel
      exact this j (by omega) i h2) (by
      refine ⟨fun i _ _ h => by simp [bobEnv, env] at h, fun i j _ h2 h3 => ?_⟩
      have : ∀ j < 20, ∀ i < j, bobEnv.drawn i ≠ bobEnv.drawn j := by decide +kernel
      exact this j (by omega) i h2) (by decide) (pk := freshPk) (by decide +kernel) (by decide +kernel) 2 Toy.alice Toy.bob
  refine ⟨st, p, h1, h2 toyTalk (by decide) (by decide) ?_ _ (by decide +kernel)⟩
  intro s t h
  have : ∀ e ∈ toyTalk, ∀ s t, e = Talk.Event.say s t → t.length < 10 := by
    intro e he
    simp only [toyTalk, List.mem_cons, List.not_mem_nil, or_false] at he
    rcases he with rfl | rfl | rfl | rfl | rfl | rfl | rfl | rfl | rfl | rfl | rfl | rfl | rfl | rfl | rfl <;> simp
  exact Nat.lt_trans (this _ h s t rfl) (by decide)

set_option maxRecDepth 100000 in
/-- **C102 does not extend to records that were saved and read back** (`NewSignedPreKeyFromStruct`, `NewPreKeyFromStruct`): a bundle made from the reloaded signed prekey is refused
by `ProcessBundle`, and one made from a reloaded one-time prekey is accepted, but the first message of the session is rejected by the user who published it. -/
theorem C102_reloaded_bundle_false :
    (freshA.store.processBundle freshA.env freshA.pos Toy.bob (publish freshB.env 2 freshPk (SignedPreKey.ofStruct freshB.signedPreKey.struct))).1 = .err .invalidSignature ∧
    ∃ (stA' : Store) (posA' : Nat) (m : PreKeyMsg) (e : Err),
      freshA.store.processBundle freshA.env freshA.pos Toy.bob (publish freshB.env 2 (PreKey.ofStruct freshPk.struct) freshB.signedPreKey) = (.ok (), stA', posA') ∧
      (stA'.encrypt freshA.env Toy.bob [104, 105]).1 = .ok (.preKey m) ∧ (freshB.store.decryptPreKey freshB.env freshB.pos Toy.alice m).1 = .err e := by
  refine ⟨by decide +kernel, ?_⟩
  generalize hx : freshA.store.processBundle freshA.env freshA.pos Toy.bob (publish freshB.env 2 (PreKey.ofStruct freshPk.struct) freshB.signedPreKey) = x
  have h1 : x.1 = .ok () := by rw [← hx]; decide +kernel
  have h2 : (x.2.1.encrypt freshA.env Toy.bob [104, 105]).1 = .ok (.preKey (asPreKey (x.2.1.encrypt freshA.env Toy.bob [104, 105]).1)) := by rw [← hx]; decide +kernel
  have h3 : (freshB.store.decryptPreKey freshB.env freshB.pos Toy.alice (asPreKey (x.2.1.encrypt freshA.env Toy.bob [104, 105]).1)).1 = .err .noValidSessions := by
    rw [← hx]; decide +kernel
  exact ⟨x.2.1, x.2.2, _, _, Prod.ext h1 rfl, h2, h3⟩
end

end Verif
