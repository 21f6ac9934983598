import Verif.Proofs.SymGroup
import Verif.Props.Secrecy
import Verif.Props.Groups2
/-
C67: forward secrecy of group messages.  The attacker is the symbolic one of Spec/Symbolic.lean.
-/
set_option linter.unusedSimpArgs false
namespace Verif
open Schedule Sym

/-- What happens to the sender key record of one name. -/
inductive GroupEvent where
  | sent (plaintext : Bytes) (message : SenderKeyMsg)
  | received (message : SenderKeyMsg) (plaintext : Bytes)
  | added (chainKey : Bytes)

/-- All that can happen to what is stored under the name `n`: group Encrypt and Decrypt calls, successful or not, distribution messages, the
first `Create`, and anything that leaves the record alone (other names, `Create` on an existing record). -/
inductive GroupHistory (C : Crypto) (S : Ser SKStruct) (n : SenderKeyName) (st0 : GStore) : GStore → List GroupEvent → Prop
  | start : GroupHistory C S n st0 st0 []
  | sent {st st' evs rand pt m} : GroupHistory C S n st0 st evs → st.encrypt C S rand n pt = (.ok m, st') →
      GroupHistory C S n st0 st' (evs ++ [.sent pt m])
  | received {st st' evs m pt} : GroupHistory C S n st0 st evs → st.decrypt C S n m = (.ok pt, st') →
      GroupHistory C S n st0 st' (evs ++ [.received m pt])
  | processed {st st' evs k} : GroupHistory C S n st0 st evs → st.process n k = (.ok (), st') →
      GroupHistory C S n st0 st' (evs ++ [.added (k.chainKey.getD [])])
  | created {st st' evs d k} : GroupHistory C S n st0 st evs → st.load n = .ok none ∨ st.load n = .ok (some []) → st.create C d n = (.ok k, st') →
      GroupHistory C S n st0 st' (evs ++ [.added d.chain.bytes])
  | failedEncrypt {st st' evs rand pt res} : GroupHistory C S n st0 st evs → st.encrypt C S rand n pt = (res, st') → res.isOk = false →
      GroupHistory C S n st0 st' evs
  | failedDecrypt {st st' evs m res} : GroupHistory C S n st0 st evs → st.decrypt C S n m = (res, st') → res.isOk = false →
      GroupHistory C S n st0 st' evs
  | other {st st' evs} : GroupHistory C S n st0 st evs → st'.recs n = st.recs n → GroupHistory C S n st0 st' evs

/-- The chain keys that were added, in order. -/
def addedKeys : List GroupEvent → List Bytes
  | [] => []
  | .added k :: l => k :: addedKeys l
  | _ :: l => addedKeys l

/-- The messages that were sent and received, in order. -/
def groupMessages : List GroupEvent → List GroupEvent
  | [] => []
  | .added _ :: l => groupMessages l
  | e :: l => e :: groupMessages l

/-- The message was encrypted, or decrypted, with the key of this seed. -/
def GroupEvent.uses (C : Crypto) : GroupEvent → Term → Prop
  | .sent pt m, t => ∃ k body, GroupKeyIs C.H k t ∧ encryptCbc C none (some k.iv) k.cipherKey pt = .ok body ∧ m.ciphertext = some body
  | .received m pt, t => ∃ k, GroupKeyIs C.H k t ∧ decryptCbc C (some k.iv) k.cipherKey (m.ciphertext.getD []) = .ok pt
  | .added _, _ => False

/-- Every key in the stored record is the value of a term of the symbolic record, and conversely. -/
def GroupHolds (C : Crypto) (r : Option GRec) (l : List GroupChain) : Prop := List.Forall₂ (GroupChainIs C.H) (r.getD []) l

theorem addedKeys_append (a b : List GroupEvent) : addedKeys (a ++ b) = addedKeys a ++ addedKeys b := by
  induction a with
  | nil => rfl
  | cons x a ih => cases x <;> simp [addedKeys, ih]

theorem groupMessages_append (a b : List GroupEvent) : groupMessages (a ++ b) = groupMessages a ++ groupMessages b := by
  induction a with
  | nil => rfl
  | cons x a ih => cases x <;> simp [groupMessages, ih]

theorem GStore.load_congr {st st' : GStore} {n : SenderKeyName} (h : st'.recs n = st.recs n) : st'.load n = st.load n := by
  simp only [GStore.load, h]

theorem groupHolds_reloaded {C : Crypto} {r : GRec} {l : List GroupChain} (h : GroupHolds C (some r) l) :
    GroupHolds C (some (r.map SKState.reloaded)) l := by
  unfold GroupHolds at h ⊢
  simp only [Option.getD_some] at h ⊢
  induction h with
  | nil => exact .nil
  | cons h1 _ ih => exact .cons ⟨h1.ck, h1.skipped⟩ ih

/-- Adding a chain to a record. -/
theorem add_run (C : Crypto) {o : Option GRec} {cs : List GroupChain} (h : GroupHolds C o cs) (k : SKDMsg) (a : Term) (pool : List Term)
    (ha : a.eval C.H = k.chainKey.getD []) :
    ∃ cs', GroupRun ⟨a :: pool, cs⟩ ⟨pool, cs'⟩ [] ∧ GroupHolds C (some (groupProcess o k)) cs' := by
  have hs := GroupRun.single (GroupStep.add pool cs a)
  have hh : List.Forall₂ (GroupChainIs C.H) (o.getD [] ++ [⟨[], k.id, ⟨k.iteration, k.chainKey.getD []⟩, ⟨k.signatureKey, none⟩⟩]) (cs ++ [⟨a, []⟩]) :=
    forall₂_append h (.cons ⟨ha.symm, .nil⟩ .nil)
  unfold GroupHolds groupProcess GRec.addState
  simp only [Option.getD_some]
  split
  · cases hl : cs ++ [⟨a, []⟩] with
    | nil => simp at hl
    | cons c r =>
      have hs2 := GroupRun.single (GroupStep.forgetChain pool [] r c)
      rw [hl] at hs hh
      refine ⟨r, by simpa using hs.trans hs2, ?_⟩
      generalize (o.getD [] ++ [⟨[], k.id, ⟨k.iteration, k.chainKey.getD []⟩, ⟨k.signatureKey, none⟩⟩] : List SKState) = ll at hh
      cases hh with
      | cons _ h => simpa using h
  · exact ⟨_, hs, hh⟩

/-- A history is a run of the symbolic record. -/
theorem groupHistory_run {C : Crypto} {S : Ser SKStruct} {n : SenderKeyName} {st0 st : GStore} {evs : List GroupEvent}
    (h : GroupHistory C S n st0 st evs) {o0 : Option GRec} (hl : st0.load n = .ok o0) (cs0 : List GroupChain) (h0 : GroupHolds C o0 cs0) :
    ∃ o, st.load n = .ok o ∧ ∀ (pool rest : List Term), pool.map (Term.eval C.H) = addedKeys evs →
      ∃ cs us, GroupRun ⟨pool ++ rest, cs0⟩ ⟨rest, cs⟩ us ∧ GroupHolds C o cs ∧ List.Forall₂ (GroupEvent.uses C) (groupMessages evs) us := by
  induction h with
  | start =>
    refine ⟨o0, hl, fun pool rest hp => ?_⟩
    have : pool = [] := by simpa [addedKeys] using hp
    subst this
    exact ⟨cs0, [], .refl _, h0, .nil⟩
  | @sent st st' evs rand pt m _ he ih =>
    obtain ⟨o, hl', ih⟩ := ih
    unfold GStore.encrypt at he
    rw [hl'] at he
    simp only at he
    cases o with
    | none => simp [groupEncrypt] at he
    | some r =>
      cases r with
      | nil => simp [groupEncrypt] at he
      | cons s r =>
        simp only [groupEncrypt, msgKey_eq, Res.bind_ok] at he
        cases hb : encryptCbc C none (some (groupKey C s.chain).iv) (groupKey C s.chain).cipherKey pt with
        | err e => simp [hb] at he
        | panic => simp [hb] at he
        | ok body =>
          simp only [hb, Res.bind_ok] at he
          cases hm : newSenderKeyMessage C S s.keyId (groupKey C s.chain).iteration body s.signing.priv rand with
          | err e => rw [hm] at he; simp at he
          | panic => rw [hm] at he; simp at he
          | ok m' =>
            rw [hm] at he
            simp only [Prod.mk.injEq, Res.ok.injEq] at he
            obtain ⟨rfl, rfl⟩ := he
            refine ⟨some ({ s with chain := s.chain.next C } :: r), ?_, ?_⟩
            · apply GStore.load_save_loaded
              intro x hx
              rcases List.mem_cons.1 hx with rfl | hx
              · exact GStore.loaded hl' s (by simp)
              · exact GStore.loaded hl' x (List.mem_cons_of_mem _ hx)
            · intro pool rest hp
              simp only [addedKeys_append, addedKeys, List.append_nil] at hp
              obtain ⟨cs, us, h1, h2, h3⟩ := ih pool rest hp
              unfold GroupHolds at h2
              simp only [Option.getD_some] at h2
              cases h2 with
              | @cons _ c _ cs g1 g2 =>
                obtain ⟨t, lt⟩ := c
                refine ⟨⟨next t, lt⟩ :: cs, us ++ [groupSeed t], h1.trans (GroupRun.single (.use rest [] cs t lt)), .cons ⟨snext_eval C g1.ck, g1.skipped⟩ g2, ?_⟩
                rw [groupMessages_append]
                refine forall₂_append h3 (.cons ⟨_, body, groupKeyIs_key C g1.ck, hb, ?_⟩ .nil)
                unfold newSenderKeyMessage at hm
                cases hpr : s.signing.priv with
                | none => simp [hpr] at hm
                | some pk =>
                  simp only [hpr] at hm
                  revert hm
                  cases SenderKeyMsg.serialize S _ with
                  | err e => intro hm; simp at hm
                  | panic => intro hm; simp at hm
                  | ok b => intro hm; simp only [Res.map_ok, Res.ok.injEq] at hm; rw [← hm]
  | @received st st' evs m pt _ he ih =>
    obtain ⟨o, hl', ih⟩ := ih
    cases o with
    | none => simp [GStore.decrypt, hl', groupDecrypt] at he
    | some r =>
      rcases GStore.decrypt_cases C S hl' m with ⟨-, hno⟩ | ⟨s, body, mk, s', pt', hf, -, -, hg, hd, e1, -, e3⟩
      · rw [he] at hno; simp [Res.isOk] at hno
      · rw [he] at e1 e3
        simp only [Res.ok.injEq] at e1
        subst e1
        refine ⟨_, e3, ?_⟩
        intro pool rest hp
        simp only [addedKeys_append, addedKeys, List.append_nil] at hp
        obtain ⟨cs, us, h1, h2, h3⟩ := ih pool rest hp
        obtain ⟨pre, post, rfl, -, hm⟩ := modifyFirst_split hf
        unfold GroupHolds at h2
        simp only [Option.getD_some] at h2
        obtain ⟨cpre, cpost, rfl, g1, g2⟩ := forall₂_append_left h2
        cases g2 with
        | @cons _ c _ cpost g2 g3 =>
          obtain ⟨c', k, hr, hc, hk⟩ := getSenderKey_run C rest cpre cpost s s' c m.iteration mk hg g2
          refine ⟨cpre ++ c' :: cpost, us ++ [k], h1.trans hr, ?_, ?_⟩
          · unfold GroupHolds
            simp only [Option.getD_some]
            rw [hm]
            exact forall₂_append g1 (.cons hc g3)
          · rw [groupMessages_append]
            exact forall₂_append h3 (.cons ⟨mk, hk, hd⟩ .nil)
  | @processed st st' evs k _ he ih =>
    obtain ⟨o, hl', ih⟩ := ih
    unfold GStore.process at he
    rw [hl'] at he
    simp only [Prod.mk.injEq, true_and] at he
    subst he
    refine ⟨some ((groupProcess o k).map SKState.reloaded), GStore.load_save _ _ _, ?_⟩
    intro pool rest hp
    rw [addedKeys_append] at hp
    obtain ⟨pool', pa, rfl, hp1, hp2⟩ := List.map_eq_append_iff.1 hp
    simp only [addedKeys] at hp2
    obtain ⟨a, pa', rfl, ha, hpa⟩ := List.map_eq_cons_iff.1 hp2
    have : pa' = [] := by simpa using hpa
    subst this
    obtain ⟨cs, us, h1, h2, h3⟩ := ih pool' (a :: rest) hp1
    obtain ⟨cs', g1, g2⟩ := add_run C h2 k a rest ha
    refine ⟨cs', us, ?_, groupHolds_reloaded g2, by simpa [groupMessages_append, groupMessages] using h3⟩
    have := h1.trans g1
    simpa using this
  | @created st st' evs d k _ hno he ih =>
    obtain ⟨o, hl', ih⟩ := ih
    have hemp : o.getD [] = [] := by
      rw [hl'] at hno
      rcases hno with h | h <;> simp only [Res.ok.injEq] at h <;> simp [h]
    obtain ⟨kp, hst⟩ : ∃ kp, st' = st.save n (GRec.setState d.id 0 d.chain.bytes kp) := by
      unfold GStore.create at he
      rw [hl'] at he
      simp only [groupCreate] at he
      cases o with
      | none =>
        cases hk : generateKeyPair C d.signing with
        | err e => simp [hk] at he
        | panic => simp [hk] at he
        | ok kp => simp [hk] at he; exact ⟨kp, he.2.symm⟩
      | some r =>
        have : r = [] := by simpa using hemp
        subst this
        cases hk : generateKeyPair C d.signing with
        | err e => simp [hk] at he
        | panic => simp [hk] at he
        | ok kp => simp [hk] at he; exact ⟨kp, he.2.symm⟩
    subst hst
    refine ⟨some ((GRec.setState d.id 0 d.chain.bytes kp).map SKState.reloaded), GStore.load_save _ _ _, ?_⟩
    intro pool rest hp
    rw [addedKeys_append] at hp
    obtain ⟨pool', pa, rfl, hp1, hp2⟩ := List.map_eq_append_iff.1 hp
    simp only [addedKeys] at hp2
    obtain ⟨a, pa', rfl, ha, hpa⟩ := List.map_eq_cons_iff.1 hp2
    have : pa' = [] := by simpa using hpa
    subst this
    obtain ⟨cs, us, h1, h2, h3⟩ := ih pool' (a :: rest) hp1
    unfold GroupHolds at h2
    rw [hemp] at h2
    cases h2
    have hs := GroupRun.single (GroupStep.add rest [] a)
    refine ⟨[⟨a, []⟩], us, ?_, groupHolds_reloaded (.cons ⟨ha.symm, .nil⟩ .nil), by simpa [groupMessages_append, groupMessages] using h3⟩
    have := h1.trans hs
    simpa using this
  | @failedEncrypt st st' evs rand pt res _ he hn ih =>
    obtain ⟨o, hl', ih⟩ := ih
    have := (C56_failed_group_operation C S rand st n pt ⟨0, 0, 0, none, none⟩ (newSKDM 0 0 [] (sliceToArray 32 []))).2.1
    rw [he] at this
    exact ⟨o, by rw [show st' = st from this hn]; exact hl', ih⟩
  | @failedDecrypt st st' evs m res _ he hn ih =>
    obtain ⟨o, hl', ih⟩ := ih
    have := (C56_failed_group_operation C S (sliceToArray 64 []) st n [] m (newSKDM 0 0 [] (sliceToArray 32 []))).1
    rw [he] at this
    exact ⟨o, by rw [show st' = st from this hn]; exact hl', ih⟩
  | other _ hs ih =>
    obtain ⟨o, hl', ih⟩ := ih
    exact ⟨o, by rw [GStore.load_congr hs]; exact hl', ih⟩

/-- **C67 (forward secrecy of groups).** Take any stored sender key record whose secrets are independent of each other and any history of it, in
which distribution messages bring new, independent chain keys.  An attacker who then steals the stored record cannot compute the seed of any
message sent or received in the history, nor the HKDF blocks its IV and cipher key are cut from; although all of them followed from what there
was at the start. -/
theorem C67_group_forward_secrecy (C : Crypto) (S : Ser SKStruct) (n : SenderKeyName) (st0 st : GStore) (evs : List GroupEvent)
    (o0 : Option GRec) (hl : st0.load n = .ok o0) (t0 : GroupState) (h0 : GroupHolds C o0 t0.chains) (hf : GroupFresh t0)
    (hp : t0.pool.map (Term.eval C.H) = addedKeys evs) (h : GroupHistory C S n st0 st evs) :
    ∃ o t us, st.load n = .ok o ∧ GroupRun t0 t us ∧ t.pool = [] ∧ GroupHolds C o t.chains ∧
      List.Forall₂ (GroupEvent.uses C) (groupMessages evs) us ∧
      ∀ seed ∈ us, ∀ x ∈ [seed, groupBlock1 seed, groupBlock2 seed], Sym.Knows (· ∈ t0.secrets) x ∧ ¬ Sym.Knows (· ∈ t.secrets) x := by
  obtain ⟨o, h1, h2⟩ := groupHistory_run h hl t0.chains h0
  obtain ⟨cs, us, g1, g2, g3⟩ := h2 t0.pool [] hp
  rw [List.append_nil] at g1
  refine ⟨o, ⟨[], cs⟩, us, h1, g1, rfl, g2, g3, ?_⟩
  intro seed hs x hx
  have ha : Anti t0.secrets := anti_of_atoms hf.atoms hf.distinct
  refine ⟨knows_seed ((groupRun_known g1 (fun t ht => .given ht)).2 seed hs) x hx, ?_⟩
  exact (groupRun_safe g1 ha).not_known ha (List.mem_flatMap.2 ⟨seed, hs, hx⟩)

/-- The keys of skipped messages in the record come from their seeds, as the library makes them. -/
def GroupDerived (C : Crypto) (o : Option GRec) : Prop :=
  ∀ s ∈ o.getD [], ∀ k ∈ s.keys, k.iv ++ k.cipherKey = hkdf C.H noSalt k.seed (ascii "WhisperGroup") 48

theorem hkdf48 (H : Bytes → Bytes → Bytes) (t : Term) :
    hkdf H noSalt (t.eval H) (ascii "WhisperGroup") 48 = ((groupBlock1 t).eval H ++ (groupBlock2 t).eval H).take 48 := by
  obtain ⟨t1, t2, -⟩ := eval_T H (.hash (.pub noSalt) t) (ascii "WhisperGroup")
  unfold groupBlock1 groupBlock2
  rw [t1, t2]
  simp only [hkdf, show (48 + 31) / 32 = 2 from rfl, blocks, List.nil_append]
  rfl

theorem label_seeds (H : Bytes → Bytes → Bytes) (l : List SMKey)
    (hl : ∀ k ∈ l, k.iv ++ k.cipherKey = hkdf H noSalt k.seed (ascii "WhisperGroup") 48) (n : Nat) :
    ∃ m lt, List.Forall₂ (GroupKeyIs H) l lt ∧ Lab n m lt := by
  induction l generalizing n with
  | nil => exact ⟨n, [], .nil, ⟨Nat.le_refl _, by simp, by simp⟩⟩
  | cons k l ih =>
    obtain ⟨m, lt, h1, h2⟩ := ih (fun k hk => hl k (by simp [hk])) (n + 1)
    refine ⟨m, .atom [n] k.seed :: lt, .cons ⟨rfl, ?_⟩ h1, (Lab.one n k.seed).append h2⟩
    rw [hl k (by simp)]
    exact hkdf48 H (.atom [n] k.seed)

theorem label_groupChains (H : Bytes → Bytes → Bytes) (l : List SKState)
    (hl : ∀ s ∈ l, ∀ k ∈ s.keys, k.iv ++ k.cipherKey = hkdf H noSalt k.seed (ascii "WhisperGroup") 48) (n : Nat) :
    ∃ m lt, List.Forall₂ (GroupChainIs H) l lt ∧ Lab n m (lt.flatMap GroupChain.list) := by
  induction l generalizing n with
  | nil => exact ⟨n, [], .nil, ⟨Nat.le_refl _, by simp, by simp⟩⟩
  | cons c l ih =>
    obtain ⟨m1, ks, g1, g2⟩ := label_seeds H c.keys (hl c (by simp)) (n + 1)
    obtain ⟨m, lt, h1, h2⟩ := ih (fun k hk => hl k (by simp [hk])) m1
    exact ⟨m, ⟨.atom [n] c.chain.key, ks⟩ :: lt, .cons ⟨rfl, g1⟩ h1, ((Lab.one n c.chain.key).append g2).append h2⟩

theorem label_pool (H : Bytes → Bytes → Bytes) (l : List Bytes) (n : Nat) :
    ∃ m pool, pool.map (Term.eval H) = l ∧ Lab n m pool := by
  induction l generalizing n with
  | nil => exact ⟨n, [], rfl, ⟨Nat.le_refl _, by simp, by simp⟩⟩
  | cons k l ih =>
    obtain ⟨m, p, h1, h2⟩ := ih (n + 1)
    exact ⟨m, .atom [n] k :: p, by simp [h1, Term.eval], (Lab.one n k).append h2⟩

/-- **C67 applies to every record**: the secrets of every record the library makes, and the chain keys to come, can be taken as independent. -/
theorem C67_applies (C : Crypto) (o : Option GRec) (h : GroupDerived C o) (keys : List Bytes) :
    ∃ t0, GroupHolds C o t0.chains ∧ GroupFresh t0 ∧ t0.pool.map (Term.eval C.H) = keys := by
  obtain ⟨m, pool, h1, h2⟩ := label_pool C.H keys 0
  obtain ⟨m', cs, g1, g2⟩ := label_groupChains C.H (o.getD []) h m
  have hl := h2.append g2
  refine ⟨⟨pool, cs⟩, g1, ⟨?_, hl.distinct⟩, h1⟩
  intro t ht
  obtain ⟨k, v, e, -⟩ := hl.atoms t ht
  exact ⟨[k], v, e, by simp⟩

theorem GroupHolds.derived {C : Crypto} {o : Option GRec} {cs : List GroupChain} (h : GroupHolds C o cs) : GroupDerived C o := by
  unfold GroupHolds at h
  unfold GroupDerived
  intro s hs k hk
  generalize o.getD [] = l at h hs
  induction h with
  | nil => simp at hs
  | cons h1 _ ih =>
    rcases List.mem_cons.1 hs with rfl | hs
    · have h2 := h1.skipped
      generalize s.keys = ks at h2 hk
      generalize GroupChain.skipped _ = cks at h2
      induction h2 with
      | nil => simp at hk
      | cons h3 _ ih =>
        rcases List.mem_cons.1 hk with rfl | hk
        · rw [h3.keys, h3.seed, hkdf48]
        · exact ih hk
    · exact ih hs

/-- Records are derived from the start and stay so. -/
theorem C67_derived (C : Crypto) (S : Ser SKStruct) (n : SenderKeyName) (st0 st : GStore) (evs : List GroupEvent) (o0 : Option GRec)
    (hl : st0.load n = .ok o0) (hd : GroupDerived C o0) (h : GroupHistory C S n st0 st evs) :
    ∃ o, st.load n = .ok o ∧ GroupDerived C o := by
  obtain ⟨t0, h0, hf, hp⟩ := C67_applies C o0 hd (addedKeys evs)
  obtain ⟨o, t, us, h1, -, -, h2, -⟩ := C67_group_forward_secrecy C S n st0 st evs o0 hl t0 h0 hf hp h
  exact ⟨o, h1, h2.derived⟩

/-- **C67, a whole life**: from the moment a name has no record, for every history: all messages sent and received so far are safe. -/
theorem C67_from_nothing (C : Crypto) (S : Ser SKStruct) (n : SenderKeyName) (st0 st : GStore) (evs : List GroupEvent)
    (hl : st0.recs n = none) (h : GroupHistory C S n st0 st evs) :
    ∃ o t0 t us, t0.chains = [] ∧ t0.pool.map (Term.eval C.H) = addedKeys evs ∧ GroupFresh t0 ∧ st.load n = .ok o ∧ GroupRun t0 t us ∧
      GroupHolds C o t.chains ∧ List.Forall₂ (GroupEvent.uses C) (groupMessages evs) us ∧
      ∀ seed ∈ us, ∀ x ∈ [seed, groupBlock1 seed, groupBlock2 seed], ¬ Sym.Knows (· ∈ t.secrets) x := by
  have hl' : st0.load n = .ok none := by simp [GStore.load, hl]
  obtain ⟨t0, h0, hf, hp⟩ := C67_applies C none (by simp [GroupDerived]) (addedKeys evs)
  obtain ⟨o, t, us, h1, h2, -, h3, h4, h5⟩ := C67_group_forward_secrecy C S n st0 st evs none hl' t0 h0 hf hp h
  have hc : t0.chains = [] := by
    unfold GroupHolds at h0
    simp only [Option.getD_none] at h0
    generalize t0.chains = c at h0
    cases h0; rfl
  exact ⟨o, t0, t, us, hc, hp, hf, h1, h2, h3, h4, fun seed hs x hx => (h5 seed hs x hx).2⟩

/-- **Where it ends** (the independence of distributed chain keys is needed): processing the same distribution message again after messages were
decrypted stores the old chain key once more, from which their keys follow. -/
theorem C67_repeated_distribution_false (C : Crypto) (S : Ser SKStruct) (n : SenderKeyName) (st st1 st2 st3 : GStore) (k : SKDMsg) (m : SenderKeyMsg)
    (pt : Bytes) (hl : st.recs n = none) (h1 : st.process n k = (.ok (), st1)) (hd : st1.decrypt C S n m = (.ok pt, st2))
    (hm : m.iteration = k.iteration) (h3 : st2.process n k = (.ok (), st3)) :
    ∃ r, st3.load n = .ok (some r) ∧ ∃ s ∈ r, ∃ mk, s.chain.msgKey C = .ok mk ∧
      decryptCbc C (some mk.iv) mk.cipherKey (m.ciphertext.getD []) = .ok pt := by
  have hl' : st.load n = .ok none := by simp [GStore.load, hl]
  unfold GStore.process at h1
  rw [hl'] at h1
  simp only [Prod.mk.injEq, true_and] at h1
  subst h1
  have hl1 := GStore.load_save st n (groupProcess none k)
  have hp : groupProcess none k = [⟨[], k.id, ⟨k.iteration, k.chainKey.getD []⟩, ⟨k.signatureKey, none⟩⟩] := by
    unfold groupProcess GRec.addState
    simp [groupMaxMessageKeys]
  rw [hp] at hl1 hd
  simp only [List.map_cons, List.map_nil] at hl1
  rcases GStore.decrypt_cases C S hl1 m with ⟨-, hno⟩ | ⟨s, body, mk, s', pt', hf, -, -, hg, hdc, e1, -, e3⟩
  · rw [hd] at hno; simp [Res.isOk] at hno
  · rw [hd] at e1 e3
    simp only [Res.ok.injEq] at e1
    subst e1
    have hs : s = (⟨[], k.id, ⟨k.iteration, k.chainKey.getD []⟩, ⟨k.signatureKey, none⟩⟩ : SKState).reloaded := by
      simpa using List.mem_of_find?_eq_some hf
    have hmk : mk = groupKey C ⟨k.iteration, k.chainKey.getD []⟩ := by
      have hc : s.chain = ⟨k.iteration, k.chainKey.getD []⟩ := by rw [hs]; rfl
      unfold getSenderKey at hg
      rw [hc, hm] at hg
      simp only [UInt32.lt_irrefl, if_false, UInt32.sub_self, UInt32.toNat_zero, groupSkip, msgKey_eq, Res.map_ok, Prod.mk.injEq,
        Res.ok.injEq, Option.some.injEq] at hg
      split at hg
      · simp at hg
      · simp only [Prod.mk.injEq, Res.ok.injEq, Option.some.injEq] at hg
        exact hg.1.symm
    unfold GStore.process at h3
    rw [e3] at h3
    simp only [Prod.mk.injEq, true_and] at h3
    subst h3
    refine ⟨_, GStore.load_save _ _ _, (⟨[], k.id, ⟨k.iteration, k.chainKey.getD []⟩, ⟨k.signatureKey, none⟩⟩ : SKState).reloaded, ?_, mk, ?_, hdc⟩
    · apply List.mem_map_of_mem
      unfold groupProcess GRec.addState
      simp only [Option.getD_some]
      split
      · rw [List.drop_append_of_le_length]
        · simp
        · have : (modifyFirst (fun s => s.keyId == m.keyId) (fun _ => s') [(⟨[], k.id, ⟨k.iteration, k.chainKey.getD []⟩, ⟨k.signatureKey, none⟩⟩ : SKState).reloaded]).length = 1 := by
            simp only [modifyFirst]; split <;> rfl
          omega
      · simp
    · rw [hmk]
      exact msgKey_eq C _

/-! ### Non-vacuity -/

section
open Toy
set_option maxRecDepth 100000

def gReceiver : GStore := (GStore.empty.process gName gSkdm).2
def gDec : Res Bytes × GStore := gReceiver.decrypt C protoSK gName gMsg0

/-- The toy group: Alice creates a sender key and sends a message, Bob processes the distribution message and decrypts it. -/
example : ∃ st evs, GroupHistory C protoSK gName GStore.empty st evs ∧ (addedKeys evs).length = 1 ∧ (groupMessages evs).length = 1 := by
  have h2 : ∃ pt, gDec.1 = .ok pt := by
    have : gDec.1.isOk = true := by decide +kernel
    cases h : gDec.1 <;> simp [h, Res.isOk] at this ⊢
  obtain ⟨pt, h2⟩ := h2
  exact ⟨gDec.2, _, .received (.processed .start (k := gSkdm) (st' := gReceiver) rfl) (m := gMsg0) (pt := pt) (Prod.ext h2 rfl), rfl, rfl⟩

/-- The hypotheses of the negative theorem. -/
example : ∃ pt st3, gReceiver.decrypt C protoSK gName gMsg0 = (.ok pt, gDec.2) ∧ gMsg0.iteration = gSkdm.iteration ∧
    gDec.2.process gName gSkdm = (.ok (), st3) := by
  have h2 : ∃ pt, gDec.1 = .ok pt := by
    have : gDec.1.isOk = true := by decide +kernel
    cases h : gDec.1 <;> simp [h, Res.isOk] at this ⊢
  obtain ⟨pt, h2⟩ := h2
  have h3 : (gDec.2.process gName gSkdm).1 = .ok () := by decide +kernel
  exact ⟨pt, _, Prod.ext h2 rfl, by decide +kernel, Prod.ext h3 rfl⟩
end

end Verif
