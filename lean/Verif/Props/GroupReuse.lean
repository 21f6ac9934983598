import Verif.Model.GroupDeeds
import Verif.Props.GroupAuth
/-
C99: over a whole group life, no two messages are encrypted for the same sender key name at the same position (key id and iteration).  Other than C32 and C75 this is about lives with
any calls in between, deaths included.  It fails when a user processes 2000 distribution messages under a name that it sends with.
-/
set_option linter.unusedSimpArgs false
namespace Verif

/-! ### What is claimed -/

/-- After `pre`, the user encrypted `pt` under the name `n`, which gave the message `m`. -/
def GroupSends (C : Crypto) (S : Ser SKStruct) (life pre : List GDeed) (n : SenderKeyName) (pt : Bytes) (m : SenderKeyMsg) : Prop :=
  ∃ rand post, life = pre ++ ⟨.encrypt n pt rand, none⟩ :: post ∧ ((GStore.deeds C S GStore.empty pre).call C S (.encrypt n pt rand)).1 = .encrypted (.ok m)

/-- The call processes a distribution message under the name. -/
def GDeed.processes (n : SenderKeyName) (d : GDeed) : Bool :=
  match d.what with
  | .process n' _ => decide (n' = n)
  | _ => false

/-! ### Proofs -/

theorem gDeeds_append (C : Crypto) (S : Ser SKStruct) (st : GStore) (ds : List GDeed) (d : GDeed) : st.deeds C S (ds ++ [d]) = (st.deeds C S ds).deed C S d := by
  simp [GStore.deeds, List.foldl_append]

theorem call_apply (C : Crypto) (S : Ser SKStruct) (st : GStore) (op : GOp) : (st.call C S op).2 = op.apply C S st := by cases op <;> rfl

theorem groupSkip_chain (C : Crypto) (it : UInt32) : ∀ (fuel : Nat) (s : SKState) (ck : SChainKey), ck.iteration.toNat + fuel ≤ it.toNat →
    ∃ ck' s', groupSkip C it fuel s ck = (.ok ck', s') ∧ ck'.iteration.toNat = ck.iteration.toNat + fuel ∧ s'.keyId = s.keyId := by
  intro fuel
  induction fuel with
  | zero => intro s ck _; exact ⟨ck, s, rfl, rfl, rfl⟩
  | succ fuel ih =>
    intro s ck h
    have hit := it.toNat_lt
    have hlt : ck.iteration < it := UInt32.lt_iff_toNat_lt.2 (by omega)
    have hn : (ck.next C).iteration.toNat = ck.iteration.toNat + 1 := by
      show (ck.iteration + 1).toNat = _
      rw [UInt32.toNat_add, show (1 : UInt32).toNat = 1 from rfl, Nat.mod_eq_of_lt (by omega)]
    obtain ⟨ck', s', h1, h2, h3⟩ := ih (s.addKey (groupKey C ck)) (ck.next C) (by omega)
    refine ⟨ck', s', ?_, by omega, h3⟩
    simp only [groupSkip, msgKey_eq, if_pos hlt]
    exact h1

theorem getSenderKey_chain {C : Crypto} {s s' : SKState} {it : UInt32} {mk : SMKey} (h : getSenderKey C s it = (.ok (some mk), s')) :
    s'.keyId = s.keyId ∧ ∃ j, j ≤ 2001 ∧ s'.chain.iteration = s.chain.iteration + UInt32.ofNat j := by
  unfold getSenderKey at h
  by_cases h1 : it < s.chain.iteration
  · rw [if_pos h1] at h
    split at h
    · simp only [Prod.mk.injEq] at h
      obtain ⟨-, rfl⟩ := h
      unfold SKState.removeKey
      split
      · exact ⟨rfl, 0, by omega, by simp⟩
      · exact ⟨rfl, 0, by omega, by simp⟩
    · simp at h
  · rw [if_neg h1] at h
    by_cases h2 : 2000 < it - s.chain.iteration
    · rw [if_pos h2] at h; simp at h
    · rw [if_neg h2] at h
      have hle : s.chain.iteration.toNat ≤ it.toNat := by
        have := mt UInt32.lt_iff_toNat_lt.2 h1
        omega
      have hsub : (it - s.chain.iteration).toNat = it.toNat - s.chain.iteration.toNat := UInt32.toNat_sub_of_le _ _ (UInt32.le_iff_toNat_le.2 hle)
      have hd : (it - s.chain.iteration).toNat ≤ 2000 := by
        have := mt UInt32.lt_iff_toNat_lt.2 h2
        have e : (2000 : UInt32).toNat = 2000 := rfl
        omega
      obtain ⟨ck', s1, g1, g2, g3⟩ := groupSkip_chain C it (it - s.chain.iteration).toNat s s.chain (by omega)
      rw [g1] at h
      simp only [msgKey_eq, Res.map_ok, Prod.mk.injEq] at h
      obtain ⟨-, rfl⟩ := h
      refine ⟨g3, (it - s.chain.iteration).toNat + 1, by omega, ?_⟩
      have : ck'.iteration = it := UInt32.toNat_inj.1 (by omega)
      show ck'.iteration + 1 = _
      rw [this, UInt32.ofNat_add, UInt32.ofNat_toNat, ← UInt32.add_assoc]
      congr 1
      rw [UInt32.add_comm, UInt32.sub_add_cancel]

/-- What a call does to the first state of the record of a name. -/
theorem apply_head (C : Crypto) (S : Ser SKStruct) {st : GStore} {n : SenderKeyName} {s : SKState} {rest : GRec} (hl : st.load n = .ok (some (s :: rest))) (op : GOp)
    (hroom : rest.length + (if GDeed.processes n ⟨op, none⟩ = true then 1 else 0) < 2000) :
    ∃ s' rest' j, (op.apply C S st).load n = .ok (some (s' :: rest')) ∧ s'.keyId = s.keyId ∧ j ≤ 2001 ∧ s'.chain.iteration = s.chain.iteration + UInt32.ofNat j ∧
      rest'.length ≤ rest.length + (if GDeed.processes n ⟨op, none⟩ = true then 1 else 0) := by
  have hld := GStore.loaded hl
  have other : ∀ n' r, n' ≠ n → op.apply C S st = st.save n' r → ∃ s' rest' j, (op.apply C S st).load n = .ok (some (s' :: rest')) ∧ s'.keyId = s.keyId ∧ j ≤ 2001 ∧
      s'.chain.iteration = s.chain.iteration + UInt32.ofNat j ∧ rest'.length ≤ rest.length + (if GDeed.processes n ⟨op, none⟩ = true then 1 else 0) := by
    intro n' r hn h
    rw [h, GStore.load_save_ne st r (Ne.symm hn)]
    exact ⟨s, rest, 0, hl, rfl, by omega, by simp, by omega⟩
  rcases GOp.apply_cases C S st op with h | ⟨n', s1, r1, pt, rand, rfl, h1, h2⟩ | ⟨n', m, r1, s1, mk, s', rfl, h1, h2, h3, h4⟩ | ⟨n', m, o, rfl, h1, h2⟩ | ⟨n', d, kp, rfl, h1, h2⟩
  · rw [h]
    exact ⟨s, rest, 0, hl, rfl, by omega, by simp, by omega⟩
  · by_cases hn : n' = n
    · subst hn
      rw [hl] at h1
      simp only [Res.ok.injEq, Option.some.injEq, List.cons.injEq] at h1
      obtain ⟨rfl, rfl⟩ := h1
      rw [h2, GStore.load_save_loaded]
      · exact ⟨_, _, 1, rfl, rfl, by omega, rfl, by omega⟩
      · intro x hx
        rcases List.mem_cons.1 hx with rfl | hx
        · exact hld s (by simp)
        · exact hld x (by simp [hx])
    · exact other n' _ hn h2
  · by_cases hn : n' = n
    · subst hn
      rw [hl] at h1
      simp only [Res.ok.injEq, Option.some.injEq] at h1
      subst h1
      obtain ⟨e1, j, e2, e3⟩ := getSenderKey_chain h3
      rw [h4, GStore.load_save]
      by_cases hp : (s.keyId == m.keyId) = true
      · rw [List.find?_cons_of_pos (p := fun s : SKState => s.keyId == m.keyId) hp] at h2
        cases h2
        simp only [modifyFirst, hp, if_true, List.map_cons]
        exact ⟨_, _, j, rfl, e1, e2, e3, by simp⟩
      · simp only [modifyFirst, hp, if_false, List.map_cons, Bool.false_eq_true]
        refine ⟨_, _, 0, rfl, rfl, by omega, by simp [SKState.reloaded], ?_⟩
        have : ∀ (l : List SKState), (modifyFirst (fun s => s.keyId == m.keyId) (fun _ => s') l).length = l.length := by
          intro l
          induction l with
          | nil => rfl
          | cons x l ih =>
            simp only [modifyFirst]
            split <;> simp [ih]
        rw [List.length_map, this]
        omega
    · exact other n' _ hn h4
  · by_cases hn : n' = n
    · subst hn
      rw [if_pos (by simp [GDeed.processes])] at hroom
      have hp := process_room hl m (by rw [List.length_cons]; exact hroom)
      have : (GOp.process n' m).apply C S st = (st.process n' m).2 := rfl
      rw [this, hp]
      refine ⟨s, rest ++ [processed m], 0, rfl, rfl, by omega, by simp, ?_⟩
      rw [List.length_append, List.length_singleton, if_pos (by simp [GDeed.processes])]
      omega
    · exact other n' _ hn h2
  · by_cases hn : n' = n
    · subst hn
      rw [hl] at h1
      rcases h1 with h1 | h1 <;> simp at h1
    · exact other n' _ hn h2

/-- A name without a record. -/
theorem apply_none (C : Crypto) (S : Ser SKStruct) {st : GStore} {n : SenderKeyName} (hl : st.load n = .ok none) (op : GOp) :
    (op.apply C S st).load n = .ok none ∨ ∃ s, (op.apply C S st).load n = .ok (some [s]) := by
  have other : ∀ n' r, n' ≠ n → op.apply C S st = st.save n' r → (op.apply C S st).load n = .ok none := by
    intro n' r hn h
    rw [h, GStore.load_save_ne st r (Ne.symm hn)]
    exact hl
  rcases GOp.apply_cases C S st op with h | ⟨n', s1, r1, pt, rand, rfl, h1, h2⟩ | ⟨n', m, r1, s1, mk, s', rfl, h1, h2, h3, h4⟩ | ⟨n', m, o, rfl, h1, h2⟩ | ⟨n', d, kp, rfl, h1, h2⟩
  · rw [h]; exact .inl hl
  · by_cases hn : n' = n
    · subst hn; rw [hl] at h1; simp at h1
    · exact .inl (other n' _ hn h2)
  · by_cases hn : n' = n
    · subst hn; rw [hl] at h1; simp at h1
    · exact .inl (other n' _ hn h4)
  · by_cases hn : n' = n
    · subst hn
      rw [hl] at h1
      cases h1
      right
      rw [h2, GStore.load_save]
      simp only [groupProcess, GRec.addState, Option.getD_none, List.nil_append]
      rw [if_neg (by simp [groupMaxMessageKeys])]
      exact ⟨_, rfl⟩
    · exact .inl (other n' _ hn h2)
  · by_cases hn : n' = n
    · subst hn
      right
      rw [h2, GStore.load_save]
      exact ⟨_, rfl⟩
    · exact .inl (other n' _ hn h2)

theorem encrypt_none (C : Crypto) (S : Ser SKStruct) {st : GStore} {n : SenderKeyName} (hl : st.load n = .ok none) (pt : Bytes) (rand : Arr 64) (m : SenderKeyMsg) :
    (st.call C S (.encrypt n pt rand)).1 ≠ .encrypted (.ok m) := by
  simp [GStore.call, GStore.encrypt, hl, groupEncrypt]

/-- Invariant of a group life. -/
def Ahead (C : Crypto) (S : Ser SKStruct) (life : List GDeed) (n : SenderKeyName) (pre : List GDeed) : Prop :=
  ((GStore.deeds C S GStore.empty pre).load n = .ok none ∧ ∀ pre' pt m, GroupSends C S life pre' n pt m → ¬ pre'.length < pre.length) ∨
  ∃ s rest start t, (GStore.deeds C S GStore.empty pre).load n = .ok (some (s :: rest)) ∧ rest.length ≤ pre.countP (GDeed.processes n) ∧
    s.chain.iteration = start + UInt32.ofNat t ∧ t ≤ 2001 * pre.length ∧
    ∀ pre' pt m, GroupSends C S life pre' n pt m → pre'.length < pre.length → m.keyId = s.keyId ∧ ∃ t' < t, m.iteration = start + UInt32.ofNat t'

theorem ahead (C : Crypto) (S : Ser SKStruct) (hS : StdSK S) (life : List GDeed) (n : SenderKeyName) (hp : life.countP (GDeed.processes n) < 2000) :
    ∀ (k : Nat) (pre post : List GDeed), pre.length = k → life = pre ++ post → Ahead C S life n pre := by
  intro k
  induction k with
  | zero =>
    intro pre post hk _
    have : pre = [] := List.length_eq_zero_iff.1 hk
    subst this
    exact .inl ⟨rfl, fun _ _ _ _ h => by simp at h⟩
  | succ k ih =>
    intro pre1 post hk hl
    obtain ⟨pre, d, rfl⟩ : ∃ pre d, pre1 = pre ++ [d] := by
      rcases List.eq_nil_or_concat pre1 with rfl | ⟨pre, d, rfl⟩
      · simp at hk
      · exact ⟨pre, d, by simp⟩
    have hk' : pre.length = k := by simpa using hk
    have hl' : life = pre ++ d :: post := by rw [hl]; simp
    have hcnt : pre.countP (GDeed.processes n) + (if GDeed.processes n d = true then 1 else 0) < 2000 := by
      rw [hl', List.countP_append, List.countP_cons] at hp
      omega
    have hcnt' : (pre ++ [d]).countP (GDeed.processes n) = pre.countP (GDeed.processes n) + (if GDeed.processes n d = true then 1 else 0) := by
      rw [List.countP_append, List.countP_singleton]
    -- what was sent before, or just now
    have last : ∀ pre' pt m, GroupSends C S life pre' n pt m → pre'.length < (pre ++ [d]).length → pre'.length < pre.length ∨
        ∃ rand, d = ⟨.encrypt n pt rand, none⟩ ∧ ((GStore.deeds C S GStore.empty pre).call C S (.encrypt n pt rand)).1 = .encrypted (.ok m) := by
      intro pre' pt m hs hlt
      by_cases hold : pre'.length < pre.length
      · exact .inl hold
      · right
        obtain ⟨rand, post', h, ha⟩ := hs
        rw [hl'] at h
        have hle : pre'.length = pre.length := by simp at hlt; omega
        obtain ⟨h1, h2⟩ := List.append_inj h hle.symm
        subst h1
        exact ⟨rand, (List.cons.inj h2).1, ha⟩
    obtain ⟨op, dies⟩ := d
    have hproc : ∀ dies', GDeed.processes n ⟨op, dies'⟩ = GDeed.processes n ⟨op, none⟩ := fun _ => rfl
    have hdeed : GStore.deeds C S GStore.empty (pre ++ [⟨op, dies⟩]) = GStore.deeds C S GStore.empty pre ∧ dies ≠ none ∨
        GStore.deeds C S GStore.empty (pre ++ [⟨op, dies⟩]) = op.apply C S (GStore.deeds C S GStore.empty pre) := by
      rw [gDeeds_append]
      rcases dies with _ | _ | _
      · exact .inr (call_apply ..)
      · exact .inl ⟨rfl, by simp⟩
      · exact .inr (call_apply ..)
    rcases ih pre (⟨op, dies⟩ :: post) hk' hl' with ⟨h0, hno⟩ | ⟨s, rest, start, t, h1, h2, h3, h4, h5⟩
    · have hno' : ∀ pre' pt m, GroupSends C S life pre' n pt m → ¬ pre'.length < (pre ++ [(⟨op, dies⟩ : GDeed)]).length := by
        intro pre' pt m hs hlt
        rcases last pre' pt m hs hlt with h | ⟨rand, -, ha⟩
        · exact hno _ _ _ hs h
        · exact encrypt_none C S h0 pt rand m ha
      rcases hdeed with ⟨h, -⟩ | h
      · exact .inl ⟨by rw [h]; exact h0, hno'⟩
      · rcases apply_none C S h0 op with g | ⟨s, g⟩
        · exact .inl ⟨by rw [h]; exact g, hno'⟩
        · exact .inr ⟨s, [], s.chain.iteration, 0, by rw [h]; exact g, Nat.zero_le _, by simp, by omega, fun _ _ _ hs hlt => absurd hlt (hno' _ _ _ hs)⟩
    · rcases hdeed with ⟨h, hd⟩ | h
      · refine .inr ⟨s, rest, start, t, by rw [h]; exact h1, by rw [hcnt']; omega, h3, by rw [List.length_append]; omega, fun pre' pt m hs hlt => ?_⟩
        rcases last pre' pt m hs hlt with g | ⟨rand, e, -⟩
        · exact h5 _ _ _ hs g
        · cases e; exact absurd rfl hd
      · by_cases hnow : ∃ pt rand, op = .encrypt n pt rand
        · obtain ⟨pt, rand, rfl⟩ := hnow
          obtain ⟨k, hk⟩ := GStore.loaded h1 s (by simp)
          obtain ⟨m, body, content, q1, q2, q3, -, -, -, -, -, -, -, q4⟩ := GStore.encrypt_ok C S hS _ n s rest k h1 hk pt rand
          refine .inr ⟨_, rest, start, t + 1, by rw [h]; exact q4, by rw [hcnt']; omega, ?_, by rw [List.length_append, List.length_singleton]; omega, fun pre' pt' m' hs hlt => ?_⟩
          · show s.chain.iteration + 1 = _
            rw [h3, UInt32.ofNat_add, ← UInt32.add_assoc]; rfl
          · rcases last pre' pt' m' hs hlt with g | ⟨rand', e, ha⟩
            · obtain ⟨g1, t', g2, g3⟩ := h5 _ _ _ hs g
              exact ⟨g1, t', by omega, g3⟩
            · simp only [GDeed.mk.injEq, GOp.encrypt.injEq, true_and] at e
              obtain ⟨⟨rfl, rfl⟩, -⟩ := e
              simp only [GStore.call, GAnswer.encrypted.injEq] at ha
              rw [q1] at ha
              cases ha
              exact ⟨q2, t, by omega, by rw [q3, h3]⟩
        · obtain ⟨s', rest', j, g1, g2, g3, g4, g5⟩ := apply_head C S h1 op (by rw [← hproc dies]; omega)
          refine .inr ⟨s', rest', start, t + j, by rw [h]; exact g1, by rw [hcnt', hproc dies]; omega, ?_, by rw [List.length_append, List.length_singleton]; omega,
            fun pre' pt m hs hlt => ?_⟩
          · rw [g4, h3, UInt32.ofNat_add, UInt32.add_assoc]
          · rcases last pre' pt m hs hlt with g | ⟨rand, e, -⟩
            · obtain ⟨k1, t', k2, k3⟩ := h5 _ _ _ hs g
              exact ⟨k1.trans g2.symm, t', by omega, k3⟩
            · simp only [GDeed.mk.injEq] at e
              exact absurd ⟨pt, rand, e.1⟩ hnow

/-- **C99 (partial).** In every group life that begins with an empty store - any calls under any names, any messages and distribution messages received, deaths before or after any
`StoreSenderKey` -, two messages that Encrypt returned for the same sender key name carry the same key id and different iterations, if fewer than 2000 distribution messages are
processed under that name (one's own, so normally none).  Missing: lives with more, for which the claim is false (`C99_overflow_false`), and lives so long that iterations wrap around. -/
theorem C99_group_no_key_reuse_partial (C : Crypto) (S : Ser SKStruct) (hS : StdSK S) (life : List GDeed) (n : SenderKeyName) (hp : life.countP (GDeed.processes n) < 2000)
    (hlen : 2001 * life.length < 2 ^ 32) (pre1 : List GDeed) (pt1 : Bytes) (m1 : SenderKeyMsg) (h1 : GroupSends C S life pre1 n pt1 m1)
    (pre2 : List GDeed) (pt2 : Bytes) (m2 : SenderKeyMsg) (h2 : GroupSends C S life pre2 n pt2 m2) (hne : pre1 ≠ pre2) : m1.keyId = m2.keyId ∧ m1.iteration ≠ m2.iteration := by
  have key : ∀ pre1 pt1 m1 pre2 pt2 m2, GroupSends C S life pre1 n pt1 m1 → GroupSends C S life pre2 n pt2 m2 → pre1.length < pre2.length →
      m1.keyId = m2.keyId ∧ m1.iteration ≠ m2.iteration := by
    intro pre1 pt1 m1 pre2 pt2 m2 h1 h2 hlt
    obtain ⟨rand, post, hl, ha⟩ := h2
    have hle : pre2.length ≤ life.length := by rw [hl]; simp
    rcases ahead C S hS life n hp _ pre2 _ rfl hl with ⟨h0, -⟩ | ⟨s, rest, start, t, g1, -, g3, g4, g5⟩
    · exact absurd ha (encrypt_none C S h0 _ _ _)
    · obtain ⟨k1, t', k2, k3⟩ := g5 _ _ _ h1 hlt
      obtain ⟨k, hk⟩ := GStore.loaded g1 s (by simp)
      obtain ⟨m, body, content, q1, q2, q3, -⟩ := GStore.encrypt_ok C S hS _ n s rest k g1 hk pt2 rand
      simp only [GStore.call, GAnswer.encrypted.injEq] at ha
      rw [q1] at ha
      cases ha
      refine ⟨k1.trans q2.symm, fun e => ?_⟩
      rw [q3, k3, g3] at e
      have e' : UInt32.ofNat t' = UInt32.ofNat t := UInt32.add_right_inj start |>.1 e
      have := congrArg UInt32.toNat e'
      rw [UInt32.toNat_ofNat', UInt32.toNat_ofNat', Nat.mod_eq_of_lt (by omega), Nat.mod_eq_of_lt (by omega)] at this
      omega
  have hl1 : ∃ d post, life = pre1 ++ d :: post := by obtain ⟨rand, post, hl, -⟩ := h1; exact ⟨_, _, hl⟩
  have hl2 : ∃ d post, life = pre2 ++ d :: post := by obtain ⟨rand, post, hl, -⟩ := h2; exact ⟨_, _, hl⟩
  rcases Nat.lt_trichotomy pre1.length pre2.length with h | h | h
  · exact key _ _ _ _ _ _ h1 h2 h
  · obtain ⟨d, post, hl1⟩ := hl1
    obtain ⟨d', post', hl2⟩ := hl2
    rw [hl1] at hl2
    exact absurd (List.append_inj hl2 h).1 hne
  · obtain ⟨e1, e2⟩ := key _ _ _ _ _ _ h2 h1 h
    exact ⟨e1.symm, e2.symm⟩

theorem gDeeds_map (C : Crypto) (S : Ser SKStruct) (ops : List GOp) : ∀ st : GStore, st.deeds C S (ops.map (⟨·, none⟩)) = gRun C S st ops := by
  induction ops with
  | nil => intro st; rfl
  | cons op ops ih =>
    intro st
    show (st.deed C S ⟨op, none⟩).deeds C S (ops.map (⟨·, none⟩)) = gRun C S (op.apply C S st) ops
    rw [ih]
    congr 1
    exact call_apply ..

/-- **C99 is false once the record of the name overflows.** For every user who creates a sender key and any two texts: encrypt the first text, process one's own distribution message 2000
times, and encrypt the second text: both messages carry the same key id and iteration and are encrypted with the same key and IV. -/
theorem C99_overflow_false (C : Crypto) (S : Ser SKStruct) (hS : StdSK S) (n : SenderKeyName) (d : GroupDraws) (w : Key32) (hd : d.signing = some w) (pt1 pt2 : Bytes) (r1 r2 : Arr 64) :
    ∃ skdm m1 m2 iv key b1 b2, (GStore.empty.create C d n).1 = .ok skdm ∧
      (∀ life, life = (GOp.create n d :: .encrypt n pt1 r1 :: (List.replicate 2000 (.process n skdm) ++ [.encrypt n pt2 r2])).map (⟨·, none⟩) →
        GroupSends C S life (life.take 1) n pt1 m1 ∧ GroupSends C S life (life.take 2002) n pt2 m2) ∧
      m1.keyId = m2.keyId ∧ m1.iteration = m2.iteration ∧ m1.ciphertext = some b1 ∧ m2.ciphertext = some b2 ∧
      encryptCbc C none (some iv) key pt1 = .ok b1 ∧ encryptCbc C none (some iv) key pt2 = .ok b2 := by
  have hc : GStore.empty.create C d n = (.ok (newSKDM d.id 0 d.chain.bytes (C.basePub (clamp w))),
      GStore.empty.save n (GRec.setState d.id 0 d.chain.bytes ⟨C.basePub (clamp w), some (clamp w)⟩)) := by
    have he : GStore.empty.load n = .ok none := rfl
    simp only [GStore.create, he, groupCreate, hd, generateKeyPair]
  generalize hsk : newSKDM d.id 0 d.chain.bytes (C.basePub (clamp w)) = skdm at hc
  have hl0 : (GStore.empty.create C d n).2.load n = .ok (some [⟨[], d.id, ⟨0, d.chain.bytes⟩, ⟨C.basePub (clamp w), some (clamp w)⟩⟩]) := by
    rw [hc, GStore.load_save]; rfl
  obtain ⟨m1, b1, c1, q1, q2, q3, q4, -, q5, -, -, -, -, q6⟩ := GStore.encrypt_ok C S hS _ n _ [] (clamp w) hl0 rfl pt1 r1
  have hps : (processed skdm).keyId = d.id ∧ (processed skdm).chain = ⟨0, d.chain.bytes⟩ ∧ (processed skdm).signing.priv = some (sliceToArray 32 []) := by
    rw [← hsk]; exact ⟨rfl, rfl, rfl⟩
  have key : ∀ k : Nat, k = 1998 → ∃ m2 b2, ((gRun C S GStore.empty (.create n d :: .encrypt n pt1 r1 :: List.replicate (k + 2) (.process n skdm))).encrypt C S r2 n pt2).1 = .ok m2 ∧
      m2.keyId = d.id ∧ m2.iteration = 0 ∧ m2.ciphertext = some b2 ∧
      encryptCbc C none (some (groupKey C ⟨0, d.chain.bytes⟩).iv) (groupKey C ⟨0, d.chain.bytes⟩).cipherKey pt2 = .ok b2 := by
    intro k hk
    have many := process_many C S n skdm (k + 1) _ _ q6 (by simp only [List.length_singleton]; omega)
    have hrun : gRun C S GStore.empty (.create n d :: .encrypt n pt1 r1 :: List.replicate (k + 2) (.process n skdm)) =
        ((gRun C S (((GStore.empty.create C d n).2).encrypt C S r1 n pt1).2 (List.replicate (k + 1) (.process n skdm))).process n skdm).2 := by
      rw [List.replicate_succ']
      show gRun C S (((GStore.empty.create C d n).2).encrypt C S r1 n pt1).2 (List.replicate (k + 1) (.process n skdm) ++ [.process n skdm]) = _
      rw [gRun_append]
      rfl
    rw [List.cons_append, List.nil_append] at many
    have full := process_full many skdm (by rw [List.length_replicate]; omega)
    rw [List.replicate_succ (a := processed skdm), List.cons_append] at full
    rw [hrun]
    obtain ⟨m2, b2, c2, p1, p2, p3, p4, -, p5, -⟩ := GStore.encrypt_ok C S hS _ n _ _ _ full hps.2.2 pt2 r2
    rw [hps.2.1] at p3 p5
    exact ⟨m2, b2, p1, p2.trans hps.1, p3, p4, p5⟩
  obtain ⟨m2, b2, p1, p2, p3, p4, p5⟩ := key 1998 rfl
  refine ⟨skdm, m1, m2, _, _, b1, b2, by rw [hc], ?_, q2.trans p2.symm, q3.trans p3.symm, q4, p4, q5, p5⟩
  rintro life rfl
  constructor
  · refine ⟨r1, (List.replicate 2000 (GOp.process n skdm) ++ [GOp.encrypt n pt2 r2]).map (⟨·, none⟩), by rw [List.map_cons, List.map_cons]; rfl, ?_⟩
    exact congrArg GAnswer.encrypted q1
  · have htake : ∀ k, ((GOp.create n d :: .encrypt n pt1 r1 :: (List.replicate k (.process n skdm) ++ [.encrypt n pt2 r2])).map (fun x => (⟨x, none⟩ : GDeed))).take (k + 2) =
        (GOp.create n d :: .encrypt n pt1 r1 :: List.replicate k (.process n skdm)).map (⟨·, none⟩) := by
      intro k
      simp only [List.map_cons, List.take_succ_cons, List.map_append, List.cons.injEq, true_and]
      rw [List.take_append_of_le_length (by rw [List.length_map, List.length_replicate]; omega), List.take_of_length_le (by rw [List.length_map, List.length_replicate]; omega)]
    refine ⟨r2, [], ?_, ?_⟩
    · rw [htake 2000]
      simp only [List.map_cons, List.map_append, List.cons_append, List.map_nil]
    · rw [htake 2000, gDeeds_map]
      exact congrArg GAnswer.encrypted p1

section
open Toy
set_option maxRecDepth 100000

/-- A group life: create a sender key, send, die after storing, process another member's distribution message under its own name, try to decrypt something, send twice. -/
example : ∃ (life : List GDeed) (n : SenderKeyName), life.countP (GDeed.processes n) < 2000 ∧ 2001 * life.length < 2 ^ 32 ∧
    ∀ i ∈ [1, 5, 6], ∃ pt m, GroupSends C protoSK life (life.take i) n pt m := by
  let n : SenderKeyName := ⟨"g", alice⟩
  let other : SKDMsg := newSKDM 5 3 [1] (key 9)
  let life : List GDeed := [⟨.create n ⟨some (key 1), 7, key 2⟩, none⟩, ⟨.encrypt n [1] ⟨List.replicate 64 0, rfl⟩, none⟩, ⟨.encrypt n [2] ⟨List.replicate 64 0, rfl⟩, some true⟩,
    ⟨.process n other, none⟩, ⟨.decrypt n ⟨3, 7, 0, some [1], some (List.replicate 64 0)⟩, none⟩, ⟨.encrypt n [3] ⟨List.replicate 64 0, rfl⟩, none⟩,
    ⟨.encrypt n [4] ⟨List.replicate 64 0, rfl⟩, none⟩]
  refine ⟨life, n, by decide, by decide, ?_⟩
  have ok : ∀ i pt, (∃ rand post, life = life.take i ++ ⟨.encrypt n pt rand, none⟩ :: post ∧
      (((GStore.deeds C protoSK GStore.empty (life.take i)).encrypt C protoSK rand n pt).1.isOk) = true) → ∃ pt m, GroupSends C protoSK life (life.take i) n pt m := by
    rintro i pt ⟨rand, post, h, h'⟩
    cases hx : ((GStore.deeds C protoSK GStore.empty (life.take i)).encrypt C protoSK rand n pt).1 with
    | ok m => exact ⟨pt, m, rand, post, h, congrArg GAnswer.encrypted hx⟩
    | err e => rw [hx] at h'; simp [Res.isOk] at h'
    | panic => rw [hx] at h'; simp [Res.isOk] at h'
  intro i hi
  simp only [List.mem_cons, List.not_mem_nil, or_false] at hi
  rcases hi with rfl | rfl | rfl
  · exact ok _ _ ⟨_, _, rfl, by decide +kernel⟩
  · exact ok _ _ ⟨_, _, rfl, by decide +kernel⟩
  · exact ok _ _ ⟨_, _, rfl, by decide +kernel⟩
end

end Verif
