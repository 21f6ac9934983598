import Verif.Proofs.SymLink
import Verif.Proofs.Groups
/- Forward secrecy of sender keys: the symbolic side and the link to the model. -/
set_option linter.unusedSimpArgs false
namespace Verif.Sym
open Verif.Schedule

macro "gperm" : tactic => `(tactic|
  (refine List.perm_iff_count.2 (fun a => ?_)
   simp only [GroupState.secrets, GroupChain.list, List.flatMap_append, List.flatMap_cons, List.flatMap_nil, List.cons_append, List.nil_append,
     List.append_nil, List.append_assoc, List.count_append, List.count_cons, List.count_nil]
   try omega))

/-- The seed and the blocks its keys are cut from. -/
def seedList (seed : Term) : List Term := [seed, groupBlock1 seed, groupBlock2 seed]

theorem seed_paths {seed : Term} (h : Rooted seed) : ∀ x ∈ seedList seed, Above seed x := by
  have hp : Rooted (.hash (.pub noSalt) seed) := .up rfl h
  obtain ⟨p1, p2, -⟩ := T_parent hp (ascii "WhisperGroup")
  intro x hx
  simp only [seedList, List.mem_cons, List.not_mem_nil, or_false] at hx
  rcases hx with rfl | rfl | rfl
  · exact .refl
  · exact .up p1 (.up rfl .refl)
  · exact .up p2 (.up rfl .refl)

theorem seed_next {ck : Term} (h : Rooted ck) : Incomp (groupSeed ck) (next ck) :=
  siblings (parent_hash h) (parent_hash h) (by simp [next, groupSeed])

theorem groupStep_safe {s s' : GroupState} {e : Option Term} (h : GroupStep s s' e) (ha : Anti s.secrets) :
    Safe s.secrets s'.secrets (e.toList.flatMap seedList) := by
  cases h with
  | use pool pre post ck l =>
    have hr : Rooted ck := ha.rooted _ (by simp [GroupState.secrets, GroupChain.list])
    have hs : Rooted (groupSeed ck) := .up (parent_hash hr) hr
    refine safe_replace (t := ck) (rest := pool ++ (pre.flatMap GroupChain.list ++ (l ++ post.flatMap GroupChain.list))) (ds := [next ck]) ha
      (by gperm) (by gperm) (by simpa using above_next hr) (by simp) ?_
    intro x hx
    have hx' := seed_paths hs x (by simpa using hx)
    exact ⟨(above_seed hr).trans hx', by simpa using ((seed_next hr).below hx' .refl).2⟩
  | skip pool pre post ck l =>
    have hr : Rooted ck := ha.rooted _ (by simp [GroupState.secrets, GroupChain.list])
    refine safe_replace (t := ck) (rest := pool ++ (pre.flatMap GroupChain.list ++ (l ++ post.flatMap GroupChain.list)))
      (ds := [next ck, groupSeed ck]) ha (by gperm) (by gperm) ?_ ?_ (by simp)
    · intro d hd
      simp only [List.mem_cons, List.not_mem_nil, or_false] at hd
      rcases hd with rfl | rfl
      · exact above_next hr
      · exact above_seed hr
    · simpa using (seed_next hr).symm
  | late pool pre post ck l r k =>
    have hr : Rooted k := ha.rooted _ (by simp [GroupState.secrets, GroupChain.list])
    refine safe_replace (t := k) (rest := pool ++ (pre.flatMap GroupChain.list ++ (ck :: l ++ (r ++ post.flatMap GroupChain.list)))) (ds := []) ha
      (by gperm) (by gperm) (by simp) (by simp) ?_
    intro x hx
    exact ⟨seed_paths hr x (by simpa using hx), by simp⟩
  | forgetKey pool pre post ck l r k =>
    have := safe_drop (us := [k]) (l' := (GroupState.secrets ⟨pool, pre ++ ⟨ck, l ++ r⟩ :: post⟩)) ha (by gperm)
    exact ⟨this.anti, this.comes, by simp⟩
  | add pool chains a =>
    have := safe_drop (us := []) (l' := (GroupState.secrets ⟨pool, chains ++ [⟨a, []⟩]⟩)) ha (by gperm)
    exact ⟨this.anti, this.comes, by simp⟩
  | forgetChain pool pre post c =>
    have := safe_drop (us := c.list) (l' := (GroupState.secrets ⟨pool, pre ++ post⟩)) ha (by gperm)
    exact ⟨this.anti, this.comes, by simp⟩

theorem groupRun_safe {s s' : GroupState} {es : List Term} (h : GroupRun s s' es) (ha : Anti s.secrets) :
    Safe s.secrets s'.secrets (es.flatMap seedList) := by
  induction h with
  | refl => exact ⟨ha, .refl _, by simp⟩
  | step _ hs ih =>
    have h2 := groupStep_safe hs ih.anti
    refine ⟨h2.anti, ih.comes.trans h2.comes, ?_⟩
    intro x hx
    rw [List.flatMap_append, List.mem_append] at hx
    rcases hx with hx | hx
    · exact ⟨(ih.dead x hx).1.comes h2.comes, (ih.dead x hx).2⟩
    · refine ⟨(h2.dead x hx).1, ?_⟩
      obtain ⟨t, ht, h⟩ := (h2.dead x hx).2
      obtain ⟨u, hu, h'⟩ := ih.comes t ht
      exact ⟨u, hu, h'.trans h⟩

theorem knows_seed {K : Term → Prop} {seed : Term} (h : Knows K seed) : ∀ x ∈ seedList seed, Knows K x := by
  obtain ⟨h1, h2, -⟩ := knows_T (K := K) (prk := .hash (.pub noSalt) seed) (.hash (.pub _) h) (ascii "WhisperGroup")
  simpa [seedList] using ⟨h, h1, h2⟩

theorem groupStep_known {K : Term → Prop} {s s' : GroupState} {e : Option Term} (h : GroupStep s s' e) (hk : ∀ t ∈ s.secrets, Knows K t) :
    (∀ t ∈ s'.secrets, Knows K t) ∧ ∀ t ∈ e.toList, Knows K t := by
  cases h with
  | use pool pre post ck l =>
    simp only [GroupState.secrets, GroupChain.list, List.flatMap_append, List.flatMap_cons, List.cons_append, List.mem_cons, List.mem_append,
      forall_eq, or_imp, forall_and] at hk ⊢
    obtain ⟨a, b, c, d, e⟩ := hk
    exact ⟨⟨a, b, knows_next c, d, e⟩, by simpa [groupSeed] using Knows.hash c (.pub [1])⟩
  | skip pool pre post ck l =>
    simp only [GroupState.secrets, GroupChain.list, List.flatMap_append, List.flatMap_cons, List.cons_append, List.mem_cons, List.mem_append,
      forall_eq, or_imp, forall_and, List.not_mem_nil, false_imp_iff, implies_true, and_true, List.append_nil] at hk ⊢
    obtain ⟨a, b, c, d, e⟩ := hk
    exact ⟨⟨a, b, knows_next c, ⟨d, Knows.hash c (.pub [1])⟩, e⟩, by simp⟩
  | late pool pre post ck l r k =>
    simp only [GroupState.secrets, GroupChain.list, List.flatMap_append, List.flatMap_cons, List.cons_append, List.mem_cons, List.mem_append,
      forall_eq, or_imp, forall_and] at hk ⊢
    obtain ⟨a, b, c, ⟨d, d', d''⟩, e⟩ := hk
    exact ⟨⟨a, b, c, ⟨d, d''⟩, e⟩, by simpa using d'⟩
  | forgetKey pool pre post ck l r k =>
    simp only [GroupState.secrets, GroupChain.list, List.flatMap_append, List.flatMap_cons, List.cons_append, List.mem_cons, List.mem_append,
      forall_eq, or_imp, forall_and] at hk ⊢
    obtain ⟨a, b, c, ⟨d, d', d''⟩, e⟩ := hk
    exact ⟨⟨a, b, c, ⟨d, d''⟩, e⟩, by simp⟩
  | add pool chains x =>
    simp only [GroupState.secrets, GroupChain.list, List.flatMap_append, List.flatMap_cons, List.cons_append, List.mem_cons, List.mem_append,
      forall_eq, or_imp, forall_and, List.flatMap_nil, List.append_nil, List.not_mem_nil, false_imp_iff, implies_true, and_true] at hk ⊢
    obtain ⟨a, b, c⟩ := hk
    exact ⟨⟨b, c, a⟩, by simp⟩
  | forgetChain pool pre post c =>
    simp only [GroupState.secrets, List.flatMap_append, List.flatMap_cons, List.mem_append, or_imp, forall_and] at hk ⊢
    obtain ⟨a, b, c, d⟩ := hk
    exact ⟨⟨a, b, d⟩, by simp⟩

theorem groupRun_known {K : Term → Prop} {s s' : GroupState} {es : List Term} (h : GroupRun s s' es) (hk : ∀ t ∈ s.secrets, Knows K t) :
    (∀ t ∈ s'.secrets, Knows K t) ∧ ∀ t ∈ es, Knows K t := by
  induction h with
  | refl => exact ⟨hk, by simp⟩
  | step _ hs ih =>
    have h2 := groupStep_known hs ih.1
    refine ⟨h2.1, ?_⟩
    intro t ht
    rcases List.mem_append.1 ht with ht | ht
    · exact ih.2 t ht
    · exact h2.2 t ht

theorem GroupRun.trans {s s' s'' : GroupState} {es es' : List Term} (h : GroupRun s s' es) (h' : GroupRun s' s'' es') :
    GroupRun s s'' (es ++ es') := by
  induction h' with
  | refl => simpa using h
  | step _ hs ih => rw [← List.append_assoc]; exact .step ih hs

theorem GroupRun.single {s s' : GroupState} {e : Option Term} (h : GroupStep s s' e) : GroupRun s s' e.toList := by
  simpa using GroupRun.step (.refl s) h

end Verif.Sym

namespace Verif
open Schedule Sym

/-- A group message key comes from the seed: IV and cipher key are the first 48 bytes of the two blocks. -/
structure GroupKeyIs (H : Bytes → Bytes → Bytes) (k : SMKey) (t : Term) : Prop where
  seed : k.seed = t.eval H
  keys : k.iv ++ k.cipherKey = ((groupBlock1 t).eval H ++ (groupBlock2 t).eval H).take 48

/-- A sender key state holds the values of the terms. -/
structure GroupChainIs (H : Bytes → Bytes → Bytes) (s : SKState) (c : GroupChain) : Prop where
  ck : s.chain.key = c.ck.eval H
  skipped : List.Forall₂ (GroupKeyIs H) s.keys c.skipped

theorem groupKeyIs_key (C : Crypto) {ck : SChainKey} {t : Term} (h : ck.key = t.eval C.H) : GroupKeyIs C.H (groupKey C ck) (groupSeed t) := by
  have hm := msgKey_eq C ck
  unfold SChainKey.msgKey newSMKey at hm
  rw [C54_hkdf, if_pos (by omega)] at hm
  simp only [Res.bind_ok, Option.getD_none] at hm
  have hs : ck.derivative C [1] = (groupSeed t).eval C.H := by
    show C.H ck.key [1] = _
    rw [h]; rfl
  have h1 := T_length C (C.H noSalt (ck.derivative C [1])) (ascii "WhisperGroup") 0
  have h2 := T_length C (C.H noSalt (ck.derivative C [1])) (ascii "WhisperGroup") 1
  have hh : hkdf C.H noSalt (ck.derivative C [1]) (ascii "WhisperGroup") 48 =
      ((groupBlock1 (groupSeed t)).eval C.H ++ (groupBlock2 (groupSeed t)).eval C.H).take 48 := by
    obtain ⟨t1, t2, -⟩ := eval_T C.H (.hash (.pub noSalt) (groupSeed t)) (ascii "WhisperGroup")
    have hp : (Term.hash (.pub noSalt) (groupSeed t)).eval C.H = C.H noSalt (ck.derivative C [1]) := by rw [hs]; rfl
    rw [hp] at t1 t2
    unfold groupBlock1 groupBlock2
    rw [t1, t2]
    simp only [hkdf, show (48 + 31) / 32 = 2 from rfl, blocks, List.nil_append]
  have hl : (hkdf C.H noSalt (ck.derivative C [1]) (ascii "WhisperGroup") 48).length = 48 := by
    simp only [hkdf, show (48 + 31) / 32 = 2 from rfl, blocks, List.nil_append, List.length_take, List.length_append]
    omega
  generalize hkdf C.H noSalt (ck.derivative C [1]) (ascii "WhisperGroup") 48 = d at hm hh hl
  unfold split at hm
  rw [if_neg (by omega)] at hm
  simp only [Res.map_ok, Res.ok.injEq] at hm
  rw [← hm]
  refine ⟨hs, ?_⟩
  rw [← hh]
  show d.take 16 ++ copyInto 32 (d.drop 16) = d
  rw [copyInto_self (by simp [hl]), List.take_append_drop]

theorem snext_eval (C : Crypto) {ck : SChainKey} {t : Term} (h : ck.key = t.eval C.H) : (ck.next C).key = (next t).eval C.H := by
  show C.H ck.key [2] = _
  rw [h]; rfl

/-- Skipping messages of a group chain. -/
theorem groupSkip_run (C : Crypto) (pool : List Term) (pre post : List GroupChain) (it : UInt32) (n : Nat) :
    ∀ (s : SKState) (ck : SChainKey) (t : Term) (lt : List Term), ck.key = t.eval C.H → List.Forall₂ (GroupKeyIs C.H) s.keys lt →
      ∃ ck' s' t' lt', groupSkip C it n s ck = (.ok ck', s') ∧ GroupRun ⟨pool, pre ++ ⟨t, lt⟩ :: post⟩ ⟨pool, pre ++ ⟨t', lt'⟩ :: post⟩ [] ∧
        ck'.key = t'.eval C.H ∧ List.Forall₂ (GroupKeyIs C.H) s'.keys lt' := by
  induction n with
  | zero => exact fun s ck t lt h1 h2 => ⟨ck, s, t, lt, rfl, .refl _, h1, h2⟩
  | succ n ih =>
    intro s ck t lt h1 h2
    simp only [groupSkip]
    split
    · rw [msgKey_eq]
      simp only
      have hk : List.Forall₂ (GroupKeyIs C.H) (s.keys ++ [groupKey C ck]) (lt ++ [groupSeed t]) :=
        forall₂_append h2 (.cons (groupKeyIs_key C h1) .nil)
      have hs := GroupRun.single (GroupStep.skip pool pre post t lt)
      have hcap : ∃ lt1, GroupRun ⟨pool, pre ++ ⟨t, lt⟩ :: post⟩ ⟨pool, pre ++ ⟨next t, lt1⟩ :: post⟩ [] ∧
          List.Forall₂ (GroupKeyIs C.H) (s.addKey (groupKey C ck)).keys lt1 := by
        unfold SKState.addKey
        simp only
        split
        · cases hl : lt ++ [groupSeed t] with
          | nil => simp at hl
          | cons k r =>
            have hs2 := GroupRun.single (GroupStep.forgetKey pool pre post (next t) [] r k)
            rw [hl] at hs hk
            refine ⟨r, by simpa using hs.trans hs2, ?_⟩
            generalize s.keys ++ [groupKey C ck] = ll at hk
            cases hk with
            | cons _ h => simpa using h
        · exact ⟨_, hs, hk⟩
      obtain ⟨lt1, hr1, hk1⟩ := hcap
      obtain ⟨ck', s', t', lt', h3, hr2, h4, h5⟩ := ih (s.addKey (groupKey C ck)) (ck.next C) (next t) lt1 (snext_eval C h1) hk1
      exact ⟨ck', s', t', lt', h3, by simpa using hr1.trans hr2, h4, h5⟩
    · exact ⟨ck, s, t, lt, rfl, .refl _, h1, h2⟩

theorem findIdx_split {α : Type} {p : α → Bool} {l : List α} {i : Nat} (h : l.findIdx? p = some i) :
    ∃ a k b, l = a ++ k :: b ∧ p k = true ∧ l[i]? = some k ∧ l.eraseIdx i = a ++ b := by
  induction l generalizing i with
  | nil => simp at h
  | cons x l ih =>
    rw [List.findIdx?_cons] at h
    split at h
    · cases h
      exact ⟨[], x, l, rfl, by assumption, rfl, rfl⟩
    · cases hf : l.findIdx? p with
      | none => simp [hf] at h
      | some j =>
        simp only [hf, Option.map_some, Option.some.injEq] at h
        subst h
        obtain ⟨a, k, b, rfl, h1, h2, h3⟩ := ih hf
        exact ⟨x :: a, k, b, rfl, h1, by simpa using h2, by simpa using h3⟩

/-- Receiving a message of a group chain. -/
theorem getSenderKey_run (C : Crypto) (pool : List Term) (pre post : List GroupChain) (s s' : SKState) (c : GroupChain) (it : UInt32)
    (mk : SMKey) (h : getSenderKey C s it = (.ok (some mk), s')) (hc : GroupChainIs C.H s c) :
    ∃ c' k, GroupRun ⟨pool, pre ++ c :: post⟩ ⟨pool, pre ++ c' :: post⟩ [k] ∧ GroupChainIs C.H s' c' ∧ GroupKeyIs C.H mk k := by
  obtain ⟨t, lt⟩ := c
  obtain ⟨h1, h2⟩ := hc
  simp only at h1 h2
  unfold getSenderKey at h
  split at h
  · split at h
    · unfold SKState.removeKey at h
      cases hf : s.keys.findIdx? (fun k => k.iteration == it) with
      | none => simp [hf] at h
      | some i =>
        obtain ⟨a, k, b, e1, -, e2, e3⟩ := findIdx_split hf
        simp only [hf, e2, e3, Prod.mk.injEq, Res.ok.injEq, Option.some.injEq] at h
        obtain ⟨rfl, rfl⟩ := h
        rw [e1] at h2
        obtain ⟨m₁, m₂, rfl, g1, g2⟩ := forall₂_append_left h2
        cases g2 with
        | @cons _ k' _ m₂ g2 g3 =>
          refine ⟨⟨t, m₁ ++ m₂⟩, k', GroupRun.single (.late pool pre post t m₁ m₂ k'), ⟨h1, forall₂_append g1 g3⟩, g2⟩
    · simp at h
  · split at h
    · simp at h
    · obtain ⟨ck', s1, t', lt', e, hr, g1, g2⟩ := groupSkip_run C pool pre post it (it - s.chain.iteration).toNat s s.chain t lt h1 h2
      rw [e] at h
      simp only [msgKey_eq, Res.map_ok, Prod.mk.injEq, Res.ok.injEq, Option.some.injEq] at h
      obtain ⟨rfl, rfl⟩ := h
      refine ⟨⟨next t', lt'⟩, groupSeed t', ?_, ⟨snext_eval C g1, g2⟩, groupKeyIs_key C g1⟩
      simpa using hr.trans (GroupRun.single (.use pool pre post t' lt'))

end Verif
