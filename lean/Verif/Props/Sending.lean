import Verif.Props.Archive
/-
C08 (consecutive Encrypt calls), C17 (prekey wrapping), C39 (crashes during Encrypt).
-/
set_option linter.unusedSimpArgs false
namespace Verif

/-! ### A stored session that can encrypt -/

/-- The session stored for `a` has current state `s` and archived states `ps`, all initialised, `s` of version 3. -/
structure Ready (st : Store) (a : Addr) (s : SState) (ps : List SState) : Prop where
  load : st.load a = .ok (Rec.ofStates s ps)
  init : s.Initialised
  inits : ∀ p ∈ ps, p.Initialised
  version : s.version = currentVersion

/-- The state after one more message was sent. -/
def SState.advance (C : Crypto) (s : SState) : SState :=
  { s with senderChain := s.senderChain.map fun sc => { sc with chainKey := sc.chainKey.next C } }

theorem SState.advance_initialised (C : Crypto) {s : SState} (h : s.Initialised) : (s.advance C).Initialised := by
  obtain ⟨h1, h2, h3, h4, h5⟩ := h
  refine ⟨h1, h2, h3, h4, ?_⟩
  simp only [SState.advance]
  cases hs : s.senderChain with
  | none => exact absurd hs h5
  | some sc => simp

theorem ofStates_set_cur (s s' : SState) (ps : List SState) :
    ((Rec.ofStates s ps).set (Rec.ofStates s ps).cur s').state = s' ∧
    ((Rec.ofStates s ps).set (Rec.ofStates s ps).cur s').prevStates = ps := by
  constructor
  · simp [Rec.state]
  · have key : ((Rec.ofStates s ps).set (Rec.ofStates s ps).cur s').prevStates = (Rec.ofStates s ps).prevStates := by
      unfold Rec.prevStates
      rw [Rec.set_prev]
      apply List.map_congr_left
      intro b hb
      rw [Rec.set_heap, if_neg]
      intro e
      simp only [Rec.ofStates, List.mem_map, List.mem_range] at hb e
      obtain ⟨x, -, rfl⟩ := hb
      omega
    exact key.trans (ofStates_prev s ps)

theorem toStruct_of_init {r : Rec} (h : ∀ s ∈ r.state :: r.prevStates, s.Initialised) : ∃ str, r.toStruct = .ok str := by
  obtain ⟨st, _, h1, -⟩ := (C21_record_roundtrip r).1 h
  exact ⟨st, h1⟩

/-- The store operations of an Encrypt call on such a session, their effect, and what is returned. -/
theorem Ready.encrypt {E : Env} (hS : StdSM E.S) {st : Store} {a : Addr} {s : SState} {ps : List SState} (h : Ready st a s ps)
    (pt : Bytes) (hpt : pt.length < 2 ^ 63) :
    ∃ cm r str, encryptState E s pt = (.ok cm, s.advance E.C) ∧ r.toStruct = .ok str ∧
      st.encryptTrace E a pt = (.ok cm, [.saveIdentity a s.remoteIdentity, .storeSession a r]) ∧
      r.state = s.advance E.C ∧ r.prevStates = ps := by
  obtain ⟨cm, s', he⟩ := encryptState_total hS h.version h.init pt hpt
  obtain ⟨sc, body, sm, hsc, -, -, hs', -⟩ := encryptState_ok he
  have hadv : s' = s.advance E.C := by rw [hs']; simp [SState.advance, hsc]
  subst hadv
  have hset := ofStates_set_cur s (s.advance E.C) ps
  obtain ⟨str, hstr⟩ := toStruct_of_init (r := (Rec.ofStates s ps).set (Rec.ofStates s ps).cur (s.advance E.C)) (by
    rw [hset.1, hset.2]
    intro x hx
    rcases List.mem_cons.1 hx with rfl | hx
    · exact SState.advance_initialised _ h.init
    · exact h.inits x hx)
  refine ⟨cm, _, str, he, hstr, ?_, hset.1, hset.2⟩
  simp only [Store.encryptTrace, h.load, encryptRec, ofStates_state, he]
  rfl

/-- Saving an identity does not touch sessions. -/
theorem Ready.saveIdentity {st : Store} {a b : Addr} {s : SState} {ps : List SState} (h : Ready st a s ps) (k : Option Key32) :
    Ready { st with identities := upd st.identities b k } a s ps :=
  ⟨h.load, h.init, h.inits, h.version⟩

theorem Ready.stored {st : Store} {a : Addr} {s s0 : SState} {ps : List SState} (h : Ready st a s0 ps) {r : Rec} {str : SessionStruct}
    (hr : r.toStruct = .ok str) (hs : r.state = s) (hp : r.prevStates = ps) (hi : s.Initialised) (hv : s.version = currentVersion)
    (ids : Addr → Option Key32) :
    Ready { st with identities := ids, sessions := upd st.sessions a (some str) } a s ps := by
  refine ⟨?_, hi, h.inits, hv⟩
  rw [Store.load_stored (r := r) hr (by simp [upd]), hs, hp]

/-- The three points at which an Encrypt call can have stopped. -/
theorem Ready.crash {E : Env} (hS : StdSM E.S) {st : Store} {a : Addr} {s : SState} {ps : List SState} (h : Ready st a s ps)
    (pt : Bytes) (hpt : pt.length < 2 ^ 63) (k : Nat) :
    (st.applyAll ((st.encryptTrace E a pt).2.take k)).2 = true ∧
    Ready (st.applyAll ((st.encryptTrace E a pt).2.take k)).1 a (if k < 2 then s else s.advance E.C) ps := by
  obtain ⟨cm, r, str, he, hstr, htr, hrs, hrp⟩ := h.encrypt hS pt hpt
  rw [htr]
  match k with
  | 0 => exact ⟨rfl, h⟩
  | 1 => exact ⟨rfl, h.saveIdentity _⟩
  | k + 2 =>
    simp only [List.take_succ_cons, List.take_nil, Store.applyAll, Store.apply, hstr]
    rw [if_neg (by omega)]
    exact ⟨trivial, h.stored hstr hrs hrp (SState.advance_initialised _ h.init) h.version _⟩

theorem Ready.step {E : Env} (hS : StdSM E.S) {st : Store} {a : Addr} {s : SState} {ps : List SState} (h : Ready st a s ps)
    (pt : Bytes) (hpt : pt.length < 2 ^ 63) :
    ∃ cm, encryptState E s pt = (.ok cm, s.advance E.C) ∧ (st.encrypt E a pt).1 = .ok cm ∧ Ready (st.encrypt E a pt).2 a (s.advance E.C) ps := by
  obtain ⟨cm, r, str, he, hstr, htr, hrs, hrp⟩ := h.encrypt hS pt hpt
  have hc := h.crash hS pt hpt 2
  rw [htr] at hc
  refine ⟨cm, he, ?_, ?_⟩
  · simp only [Store.encrypt, htr, finish_fst]
    rw [show ([Effect.saveIdentity a s.remoteIdentity, Effect.storeSession a r]).take 2 = [Effect.saveIdentity a s.remoteIdentity, Effect.storeSession a r] from rfl] at hc
    rw [hc.1]; rfl
  · simp only [Store.encrypt, htr, finish_snd]
    exact hc.2

/-! ### C08 -/

/-- Consecutive Encrypt calls to one address. -/
def encryptMany (E : Env) (a : Addr) : Store → List Bytes → List (Res CipherMsg) × Store
  | st, [] => ([], st)
  | st, pt :: pts =>
    let x := st.encrypt E a pt
    let rest := encryptMany E a x.2 pts
    (x.1 :: rest.1, rest.2)

/-- **C08.** Any number of consecutive Encrypt calls on a session all succeed; the i-th message carries the
sender ratchet key of the sending chain and the counter `index + i`, its ciphertext is the plaintext encrypted with the keys
`i` steps along the chain, and afterwards the stored sending chain has advanced by exactly one step per call. -/
theorem C08_consecutive (E : Env) (hS : StdSM E.S) (st : Store) (a : Addr) (s : SState) (ps : List SState) (h : Ready st a s ps)
    (sc : Chain) (hsc : s.senderChain = some sc) (pts : List Bytes) (hpts : ∀ pt ∈ pts, pt.length < 2 ^ 63) :
    (encryptMany E a st pts).1.length = pts.length ∧
    (∀ i pt, pts[i]? = some pt → ∃ cm body, (encryptMany E a st pts).1[i]? = some (.ok cm) ∧
      cm.inner.senderRatchetKey = sc.pair.pub ∧ cm.inner.struct.counter = sc.chainKey.index + UInt32.ofNat i ∧
      encryptBody E.C ((sc.chainKey.iter E.C i).msgKeys E.C) pt = .ok body ∧ cm.inner.struct.cipherText = some body) ∧
    ∃ r', (encryptMany E a st pts).2.load a = .ok r' ∧
      r'.state = { s with senderChain := some { sc with chainKey := sc.chainKey.iter E.C pts.length } } := by
  induction pts generalizing st s sc with
  | nil =>
    refine ⟨rfl, by simp, _, h.load, ?_⟩
    rw [ofStates_state]
    simp only [List.length_nil, ChainKey.iter]
    rw [← hsc]
  | cons pt pts ih =>
    obtain ⟨cm, he, hout, hready⟩ := h.step hS pt (hpts pt List.mem_cons_self)
    obtain ⟨sc', body, hsc', hb, -, -, hctr, -, hrk, hct, -⟩ := encryptState_inner hS h.version (hpts pt List.mem_cons_self) he
    rw [hsc] at hsc'; cases hsc'
    have hsc1 : (s.advance E.C).senderChain = some { sc with chainKey := sc.chainKey.next E.C } := by simp [SState.advance, hsc]
    obtain ⟨i1, i2, r', i3, i4⟩ := ih _ _ hready _ hsc1 (fun p hp => hpts p (List.mem_cons_of_mem _ hp))
    refine ⟨by simp [encryptMany, i1], ?_, r', i3, ?_⟩
    · intro i p hp
      cases i with
      | zero =>
        simp only [List.getElem?_cons_zero, Option.some.injEq] at hp
        subst hp
        refine ⟨cm, body, by simp [encryptMany, hout], hrk, by rw [hctr]; simp, hb, hct⟩
      | succ i =>
        simp only [List.getElem?_cons_succ] at hp
        obtain ⟨cm', body', j1, j2, j3, j4, j5⟩ := i2 i p hp
        refine ⟨cm', body', by simpa [encryptMany] using j1, j2, ?_, ?_, j5⟩
        · rw [j3]
          simp only [next_index]
          apply UInt32.toNat_inj.1
          simp only [UInt32.toNat_add, UInt32.toNat_ofNat', UInt32.toNat_one]
          omega
        · rw [ChainKey.iter_succ]; exact j4
    · rw [i4]
      simp only [SState.advance, List.length_cons, ChainKey.iter_succ]

/-- **C08 (no reuse).** Two different messages among fewer than 2^32 consecutive ones have different counters. -/
theorem C08_no_reuse (E : Env) (hS : StdSM E.S) (st : Store) (a : Addr) (s : SState) (ps : List SState) (h : Ready st a s ps)
    (pts : List Bytes) (hpts : ∀ pt ∈ pts, pt.length < 2 ^ 63) (hn : pts.length < 2 ^ 32) (i j : Nat) (hij : i < j) (m m' : CipherMsg)
    (hi : (encryptMany E a st pts).1[i]? = some (.ok m)) (hj : (encryptMany E a st pts).1[j]? = some (.ok m')) :
    m.inner.struct.counter ≠ m'.inner.struct.counter := by
  cases hsc : s.senderChain with
  | none => exact absurd hsc h.init.2.2.2.2
  | some sc =>
    obtain ⟨h1, h2, -⟩ := C08_consecutive E hS st a s ps h sc hsc pts hpts
    have hjl : j < pts.length := by
      rw [← h1]; exact (List.getElem?_eq_some_iff.1 hj).1
    obtain ⟨c1, _, e1, -, e2, -⟩ := h2 i pts[i] (List.getElem?_eq_getElem (by omega))
    obtain ⟨c2, _, f1, -, f2, -⟩ := h2 j pts[j] (List.getElem?_eq_getElem (by omega))
    rw [hi] at e1; cases e1
    rw [hj] at f1; cases f1
    rw [e2, f2]
    intro he
    have := congrArg UInt32.toNat he
    simp only [UInt32.toNat_add, UInt32.toNat_ofNat'] at this
    have := sc.chainKey.index.toNat_lt
    omega

section
open Toy
set_option maxRecDepth 100000
theorem toy_ready : Ready alice1 bob (stateOf alice1 bob) [] := by
  have h1 : (alice1.sessions bob).isSome = true := by decide +kernel
  refine ⟨?_, by decide +kernel, by simp, by decide +kernel⟩
  cases hs : alice1.sessions bob with
  | none => rw [hs] at h1; simp at h1
  | some s0 =>
    have h2 : (match Rec.ofStruct s0 with | .ok r => r.prevStates.length | _ => 1) = 0 ∧
        (match Rec.ofStruct s0 with | .ok _ => true | _ => false) = true := by
      have : (match alice1.sessions bob with
        | some s0 => decide ((match Rec.ofStruct s0 with | .ok r => r.prevStates.length | _ => 1) = 0 ∧
            (match Rec.ofStruct s0 with | .ok _ => true | _ => false) = true)
        | none => false) = true := by decide +kernel
      rw [hs] at this; exact of_decide_eq_true this
    unfold stateOf recOf Store.load
    rw [hs]
    simp only
    cases hr : Rec.ofStruct s0 with
    | err e => rw [hr] at h2; simp at h2
    | panic => rw [hr] at h2; simp at h2
    | ok r =>
      simp only
      rw [hr] at h2
      simp only [and_true] at h2
      have h3 : r.prevStates = [] := List.length_eq_zero_iff.1 h2
      unfold Rec.ofStruct at hr
      cases hp : seqRes (s0.previous.map SState.ofStruct) with
      | err e => simp [hp] at hr
      | panic => simp [hp] at hr
      | ok ps =>
        cases hq : SState.ofStruct s0.state with
        | err e => simp [hp, hq] at hr
        | panic => simp [hp, hq] at hr
        | ok s =>
          simp only [hp, hq, Res.bind_ok, Res.map_ok, Res.ok.injEq] at hr
          subst hr
          rw [ofStates_prev] at h3
          subst h3
          rw [ofStates_state]

/-- Non-vacuity of C08: Alice's session right after processing the bundle. -/
example : (encryptMany aliceEnv bob alice1 [[104, 105], [1, 2, 3], []]).1.length = 3 :=
  (C08_consecutive aliceEnv (.inl rfl) alice1 bob _ [] toy_ready _ (show (stateOf alice1 bob).senderChain = some
    ((stateOf alice1 bob).senderChain.getD ⟨⟨key 0, none⟩, ⟨[], 0⟩, []⟩) by decide +kernel) _ (by decide)).1
end

/-! ### C39 -/

/-- What happens to one Encrypt call: it completes, or the process stops after `k` of its store operations. -/
inductive Fate where
  | completes
  | stopsAfter (k : Nat)

/-- A history of Encrypt calls to one address with crashes; after a crash the next call starts from the stored data.  For each call:
the message it had built, and whether it was returned to the caller. -/
def crashRun (E : Env) (a : Addr) : Store → List (Bytes × Fate) → List (Res CipherMsg × Bool) × Store
  | st, [] => ([], st)
  | st, (pt, f) :: rest =>
    let tr := st.encryptTrace E a pt
    match f with
    | .completes => let out := crashRun E a (st.encrypt E a pt).2 rest; ((tr.1, true) :: out.1, out.2)
    | .stopsAfter k => let out := crashRun E a (st.applyAll (tr.2.take k)).1 rest; ((tr.1, false) :: out.1, out.2)

theorem crashRun_counters (E : Env) (hS : StdSM E.S) (a : Addr) (hist : List (Bytes × Fate)) (hpts : ∀ x ∈ hist, x.1.length < 2 ^ 63)
    (st : Store) (s : SState) (ps : List SState) (h : Ready st a s ps) (sc : Chain) (hsc : s.senderChain = some sc) :
    ∃ ns : List Nat, ns.length = hist.length ∧
      (∀ (i n : Nat), ns[i]? = some n → n ≤ i ∧ ∃ cm b, (crashRun E a st hist).1[i]? = some (.ok cm, b) ∧
        cm.inner.senderRatchetKey = sc.pair.pub ∧ cm.inner.struct.counter = sc.chainKey.index + UInt32.ofNat n) ∧
      (∀ (i j n n' : Nat) (r : Res CipherMsg), i < j → ns[i]? = some n → ns[j]? = some n' → (crashRun E a st hist).1[i]? = some (r, true) → n < n') ∧
      (∀ (i j n n' : Nat), i ≤ j → ns[i]? = some n → ns[j]? = some n' → n ≤ n') := by
  induction hist generalizing st s sc with
  | nil => exact ⟨[], rfl, by simp, by simp, by simp⟩
  | cons x hist ih =>
    obtain ⟨pt, f⟩ := x
    have hpt : pt.length < 2 ^ 63 := hpts (pt, f) List.mem_cons_self
    have hpts' : ∀ x ∈ hist, x.1.length < 2 ^ 63 := fun y hy => hpts y (List.mem_cons_of_mem _ hy)
    obtain ⟨cm, r, str, he, -, htr, -, -⟩ := h.encrypt hS pt hpt
    obtain ⟨sc', body, hsc', -, -, -, hctr, -, hrk, -, -⟩ := encryptState_inner hS h.version hpt he
    rw [hsc] at hsc'; cases hsc'
    -- what the store is after this call: advanced by `k` steps with `k ≤ 1`, and `k = 1` when the message was returned
    have hnext : ∃ (st1 : Store) (k : Nat) (b : Bool), crashRun E a st ((pt, f) :: hist) =
        ((.ok cm, b) :: (crashRun E a st1 hist).1, (crashRun E a st1 hist).2) ∧
        Ready st1 a (if k = 0 then s else s.advance E.C) ps ∧ k ≤ 1 ∧ (b = true → k = 1) := by
      cases f with
      | completes =>
        obtain ⟨cm2, -, -, hr⟩ := h.step hS pt hpt
        exact ⟨_, 1, true, (by rw [show (Res.ok cm) = (st.encryptTrace E a pt).1 by rw [htr]]; rfl), hr, by omega, fun _ => rfl⟩
      | stopsAfter k =>
        have hc := (h.crash hS pt hpt k).2
        by_cases hk : k < 2
        · rw [if_pos hk] at hc
          exact ⟨_, 0, false, (by rw [show (Res.ok cm) = (st.encryptTrace E a pt).1 by rw [htr]]; rfl), hc, by omega, by simp⟩
        · rw [if_neg hk] at hc
          exact ⟨_, 1, false, (by rw [show (Res.ok cm) = (st.encryptTrace E a pt).1 by rw [htr]]; rfl), hc, by omega, by simp⟩
    obtain ⟨st1, k, b, hrun, hready, hk1, hb⟩ := hnext
    have hsc1 : (if k = 0 then s else s.advance E.C).senderChain = some { sc with chainKey := sc.chainKey.iter E.C k } := by
      rcases Nat.le_one_iff_eq_zero_or_eq_one.1 hk1 with rfl | rfl
      · simp [hsc, ChainKey.iter]
      · simp [SState.advance, hsc, ChainKey.iter]
    obtain ⟨ns, hlen, h1, h2, h3⟩ := ih hpts' st1 _ hready _ hsc1
    rw [hrun]
    refine ⟨0 :: ns.map (· + k), by simp [hlen], ?_, ?_, ?_⟩
    · intro i n hn
      cases i with
      | zero =>
        simp at hn; subst hn
        exact ⟨Nat.le_refl _, cm, b, by simp, hrk, by rw [hctr]; simp⟩
      | succ i =>
        simp only [List.getElem?_cons_succ, List.getElem?_map, Option.map_eq_some_iff] at hn
        obtain ⟨n0, hn0, rfl⟩ := hn
        obtain ⟨hle, cm', b', e1, e2, e3⟩ := h1 i n0 hn0
        refine ⟨by omega, cm', b', by simpa using e1, e2, ?_⟩
        rw [e3, ChainKey.iter_index]
        apply UInt32.toNat_inj.1
        simp only [UInt32.toNat_add, UInt32.toNat_ofNat']
        omega
    · intro i j n n' r hij hn hn' hr
      cases j with
      | zero => omega
      | succ j =>
        simp only [List.getElem?_cons_succ, List.getElem?_map, Option.map_eq_some_iff] at hn'
        obtain ⟨m', hm', rfl⟩ := hn'
        cases i with
        | zero =>
          simp at hn hr
          have := hb hr.2
          omega
        | succ i =>
          simp only [List.getElem?_cons_succ, List.getElem?_map, Option.map_eq_some_iff] at hn hr
          obtain ⟨m0, hm0, rfl⟩ := hn
          have := h2 i j m0 m' r (by omega) hm0 hm' hr
          omega
    · intro i j n n' hij hn hn'
      cases i with
      | zero => simp at hn; omega
      | succ i =>
        cases j with
        | zero => omega
        | succ j =>
          simp only [List.getElem?_cons_succ, List.getElem?_map, Option.map_eq_some_iff] at hn hn'
          obtain ⟨m0, hm0, rfl⟩ := hn
          obtain ⟨m', hm', rfl⟩ := hn'
          have := h3 i j m0 m' (by omega) hm0 hm'
          omega

/-- **C39.** In every history of Encrypt calls to one address, where any call may be cut short after any number of its store
operations and the next one restarts from the stored data: a message that was returned to the caller never shares its counter
with a message built later (returned or not), for fewer than 2^32 calls. -/
theorem C39_crash_no_reuse (E : Env) (hS : StdSM E.S) (st : Store) (a : Addr) (s : SState) (ps : List SState) (h : Ready st a s ps)
    (hist : List (Bytes × Fate)) (hpts : ∀ x ∈ hist, x.1.length < 2 ^ 63) (hn : hist.length < 2 ^ 32)
    (i j : Nat) (hij : i < j) (m m' : CipherMsg) (b : Bool)
    (hi : (crashRun E a st hist).1[i]? = some (.ok m, true)) (hj : (crashRun E a st hist).1[j]? = some (.ok m', b)) :
    m.inner.struct.counter ≠ m'.inner.struct.counter := by
  cases hsc : s.senderChain with
  | none => exact absurd hsc h.init.2.2.2.2
  | some sc =>
    obtain ⟨ns, hlen, h1, h2, -⟩ := crashRun_counters E hS a hist hpts st s ps h sc hsc
    have hl : (crashRun E a st hist).1.length ≤ hist.length := by
      clear hi hj h1 h2 h hlen hn hpts
      induction hist generalizing st with
      | nil => simp [crashRun]
      | cons x hist ih =>
        obtain ⟨pt, f⟩ := x
        cases f
        · simp only [crashRun, List.length_cons]; have := ih (st.encrypt E a pt).2; omega
        · rename_i k
          simp only [crashRun, List.length_cons]; have := ih (st.applyAll ((st.encryptTrace E a pt).2.take k)).1; omega
    have hjl : j < hist.length := Nat.lt_of_lt_of_le (List.getElem?_eq_some_iff.1 hj).1 hl
    have hni : ns[i]? = some ns[i] := List.getElem?_eq_getElem (by omega)
    have hnj : ns[j]? = some ns[j] := List.getElem?_eq_getElem (by omega)
    obtain ⟨a1, c1, b1, e1, -, e2⟩ := h1 i _ hni
    obtain ⟨a2, c2, b2, f1, -, f2⟩ := h1 j _ hnj
    rw [hi] at e1; cases e1
    rw [hj] at f1; cases f1
    have hlt := h2 i j _ _ _ hij hni hnj hi
    rw [e2, f2]
    intro he
    have := congrArg UInt32.toNat he
    simp only [UInt32.toNat_add, UInt32.toNat_ofNat'] at this
    have := sc.chainKey.index.toNat_lt
    omega

section
open Toy
set_option maxRecDepth 100000
/-- Non-vacuity of C39: four calls, one stopped before and one after the session was stored. -/
example : (crashRun aliceEnv bob alice1 [([1], .completes), ([2], .stopsAfter 1), ([3], .stopsAfter 2), ([4], .completes)]).1.map
    (fun x => (x.1.map (fun m => m.inner.struct.counter), x.2)) =
    [(.ok 0, true), (.ok 1, false), (.ok 1, false), (.ok 2, true)] := by decide +kernel
end

end Verif
