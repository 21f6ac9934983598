import Verif.Spec.Symbolic
/- The critical path of a term and what it says about the attacker's knowledge. -/
set_option linter.unusedSimpArgs false
namespace Verif.Sym
open Verif.Schedule

/-- The sub-term every derivation of a hash needs: the key, or the message when the key is public. -/
def Term.parent : Term → Option Term
  | .hash (.pub _) m => some m
  | .hash k _ => some k
  | _ => none

theorem parent_lt {t p : Term} (h : t.parent = some p) : sizeOf p < sizeOf t := by
  cases t with
  | hash k m =>
    cases k <;> simp [Term.parent] at h <;> subst h <;> simp <;> omega
  | _ => simp [Term.parent] at h

/-- `Above t d`: `t` is on the critical path of `d`. -/
inductive Above (t : Term) : Term → Prop
  | refl : Above t t
  | up {d p} : d.parent = some p → Above t p → Above t d

inductive Rooted : Term → Prop
  | atom (l v) : Rooted (.atom l v)
  | up {d p} : d.parent = some p → Rooted p → Rooted d

theorem Above.trans {a b c : Term} (h1 : Above a b) (h2 : Above b c) : Above a c := by
  induction h2 with
  | refl => exact h1
  | up hp _ ih => exact .up hp ih

theorem Above.size {a b : Term} (h : Above a b) : a = b ∨ sizeOf a < sizeOf b := by
  induction h with
  | refl => exact .inl rfl
  | up hp _ ih => right; have := parent_lt hp; rcases ih with rfl | ih <;> omega

theorem Above.linear {a b d : Term} (h1 : Above a d) (h2 : Above b d) : Above a b ∨ Above b a := by
  induction h1 with
  | refl => exact .inr h2
  | up hp ha ih =>
    cases h2 with
    | refl => exact .inl (.up hp ha)
    | up hp' hb => rw [hp] at hp'; cases hp'; exact ih hb

/-- Neither is on the critical path of the other. -/
def Incomp (a b : Term) : Prop := ¬ Above a b ∧ ¬ Above b a

theorem Incomp.symm {a b : Term} (h : Incomp a b) : Incomp b a := ⟨h.2, h.1⟩

theorem Incomp.below {a b x y : Term} (h : Incomp a b) (hx : Above a x) (hy : Above b y) : Incomp x y := by
  constructor
  · intro hxy
    rcases (hx.trans hxy).linear hy with h' | h'
    · exact h.1 h'
    · exact h.2 h'
  · intro hyx
    rcases (hy.trans hyx).linear hx with h' | h'
    · exact h.2 h'
    · exact h.1 h'

theorem siblings {a b p : Term} (ha : a.parent = some p) (hb : b.parent = some p) (hne : a ≠ b) : Incomp a b := by
  constructor
  · intro h
    cases h with
    | refl => exact hne rfl
    | up hp h' =>
      rw [hb] at hp; cases hp
      have := h'.size; have := parent_lt ha
      rcases h'.size with rfl | h'' <;> omega
  · intro h
    cases h with
    | refl => exact hne rfl
    | up hp h' =>
      rw [ha] at hp; cases hp
      have := parent_lt hb
      rcases h'.size with rfl | h'' <;> omega

theorem Rooted.of_above {a b : Term} (h : Above a b) (ha : Rooted a) : Rooted b := by
  induction h with
  | refl => exact ha
  | up hp _ ih => exact .up hp ih

theorem Rooted.not_cat {a b : Term} : ¬ Rooted (.cat a b) := by
  intro h; cases h with
  | up hp _ => simp [Term.parent] at hp

theorem Rooted.not_pub {v : Bytes} : ¬ Rooted (.pub v) := by
  intro h; cases h with
  | up hp _ => simp [Term.parent] at hp

/-- What can be computed, without taking pairs apart. -/
def Comp (K : Term → Prop) : Term → Prop
  | .atom l v => K (.atom l v)
  | .pub _ => True
  | .hash k m => K (.hash k m) ∨ (Comp K k ∧ Comp K m)
  | .cat a b => Comp K a ∧ Comp K b

theorem comp_of_knows {K : Term → Prop} (hK : ∀ t, K t → Rooted t) {t : Term} (h : Knows K t) : Comp K t := by
  induction h with
  | @given t h =>
    cases t with
    | atom l v => exact h
    | pub v => trivial
    | hash k m => exact .inl h
    | cat a b => exact absurd (hK _ h) Rooted.not_cat
  | pub v => trivial
  | hash _ _ ih1 ih2 => exact .inr ⟨ih1, ih2⟩
  | cat _ _ ih1 ih2 => exact ⟨ih1, ih2⟩
  | fst _ ih => exact ih.1
  | snd _ ih => exact ih.2

theorem above_of_comp {K : Term → Prop} {d : Term} (hd : Rooted d) (h : Comp K d) : ∃ t, K t ∧ Above t d := by
  induction hd with
  | atom l v => exact ⟨_, h, .refl⟩
  | @up d p hp _ ih =>
    cases d with
    | hash k m =>
      rcases h with h | h
      · exact ⟨_, h, .refl⟩
      · have : Comp K p := by
          cases k <;> simp [Term.parent] at hp <;> subst hp <;> first | exact h.1 | exact h.2
        obtain ⟨t, ht, ha⟩ := ih this
        exact ⟨t, ht, .up hp ha⟩
    | _ => simp [Term.parent] at hp

/-- A term with an underived secret at its root is known only if something on its critical path is. -/
theorem not_knows {K : Term → Prop} (hK : ∀ t, K t → Rooted t) {d : Term} (hd : Rooted d) (h : ∀ t, K t → ¬ Above t d) :
    ¬ Knows K d := by
  intro hk
  obtain ⟨t, ht, ha⟩ := above_of_comp hd (comp_of_knows hK hk)
  exact h t ht ha

/-! Paths of the key schedule. -/

theorem parent_hash {k m : Term} (h : Rooted k) : (Term.hash k m).parent = some k := by
  cases k with
  | pub v => exact absurd h Rooted.not_pub
  | _ => rfl

theorem above_next {ck : Term} (h : Rooted ck) : Above ck (next ck) := .up (parent_hash h) .refl
theorem above_seed {ck : Term} (h : Rooted ck) : Above ck (.hash ck (.pub [1])) := .up (parent_hash h) .refl
theorem above_prk {ck : Term} : Above (.hash ck (.pub [1])) (msgPrk ck) := .up rfl .refl
theorem rooted_prk {ck : Term} (h : Rooted ck) : Rooted (msgPrk ck) := .up rfl (.up (parent_hash h) h)

theorem T_parent {prk : Term} (h : Rooted prk) (info : Bytes) :
    (T1 prk info).parent = some prk ∧ (T2 prk info).parent = some prk ∧ (T3 prk info).parent = some prk :=
  ⟨parent_hash h, parent_hash h, parent_hash h⟩

theorem T12 (prk : Term) (info : Bytes) : T1 prk info ≠ T2 prk info := by simp [T1, T2]
theorem T13 (prk : Term) (info : Bytes) : T1 prk info ≠ T3 prk info := by simp [T1, T3]
theorem T23 (prk : Term) (info : Bytes) : T2 prk info ≠ T3 prk info := by simp [T2, T3]

/-- The three keys of a message lie below the chain key, apart from each other and from the next chain key. -/
theorem msg_paths {ck : Term} (h : Rooted ck) :
    (∀ t ∈ (msg ck).list, Above ck t ∧ Incomp t (next ck)) ∧ (msg ck).list.Pairwise Incomp := by
  have hp := rooted_prk h
  obtain ⟨p1, p2, p3⟩ := T_parent hp (ascii "WhisperMessageKeys")
  have hb : ∀ t, t.parent = some (msgPrk ck) → Above (.hash ck (.pub [1])) t := fun t ht => .up ht above_prk
  have hi : Incomp (.hash ck (.pub [1])) (next ck) := siblings (parent_hash h) (parent_hash h) (by simp [next])
  constructor
  · intro t ht
    have hpt : t.parent = some (msgPrk ck) := by
      simp only [MsgTerms.list, msg, List.mem_cons, List.not_mem_nil, or_false] at ht
      rcases ht with rfl | rfl | rfl <;> assumption
    exact ⟨(above_seed h).trans (hb t hpt), hi.below (hb t hpt) .refl⟩
  · simp only [MsgTerms.list, msg, List.pairwise_cons, List.mem_cons, List.not_mem_nil, or_false, forall_eq_or_imp, forall_eq]
    exact ⟨⟨siblings p1 p2 (T12 _ _), siblings p1 p3 (T13 _ _)⟩, siblings p2 p3 (T23 _ _), by simp⟩

theorem root_paths {root : Term} (h : Rooted root) (dh : Term) :
    Above root (rootOf root dh) ∧ Above root (chainOf root dh) ∧ Incomp (rootOf root dh) (chainOf root dh) := by
  have hk : Rooted (.hash root dh) := .up (parent_hash h) h
  obtain ⟨p1, p2, -⟩ := T_parent hk (ascii "WhisperRatchet")
  exact ⟨.up p1 (.up (parent_hash h) .refl), .up p2 (.up (parent_hash h) .refl), siblings p1 p2 (T12 _ _)⟩

/-! The invariant: the secrets of a state are rooted and on different paths. -/

structure Anti (l : List Term) : Prop where
  rooted : ∀ t ∈ l, Rooted t
  apart : l.Pairwise Incomp

theorem Anti.perm {l l' : List Term} (h : Anti l) (p : l.Perm l') : Anti l' :=
  ⟨fun t ht => h.rooted t (p.mem_iff.2 ht), (p.pairwise_iff (fun {_ _} h => Incomp.symm h)).1 h.apart⟩

theorem Anti.sub {l l' : List Term} (h : Anti l) (p : l'.Sublist l) : Anti l' :=
  ⟨fun t ht => h.rooted t (p.subset ht), h.apart.sublist p⟩

/-- Replacing a secret by things below it that are apart from each other. -/
theorem Anti.replace {t : Term} {rest ds : List Term} (h : Anti (t :: rest)) (hd : ∀ d ∈ ds, Above t d) (ha : ds.Pairwise Incomp) :
    Anti (ds ++ rest) := by
  have hc := List.pairwise_cons.1 h.apart
  refine ⟨?_, ?_⟩
  · intro d hm
    rcases List.mem_append.1 hm with hm | hm
    · exact Rooted.of_above (hd d hm) (h.rooted t (by simp))
    · exact h.rooted d (by simp [hm])
  · rw [List.pairwise_append]
    exact ⟨ha, hc.2, fun a ha b hb => (hc.1 b hb).below (hd a ha) .refl⟩

/-- No secret in the list is on the path of `x`. -/
def Dead (l : List Term) (x : Term) : Prop := ∀ t ∈ l, ¬ Above t x

theorem Anti.dead_below {t x : Term} {rest : List Term} (h : Anti (t :: rest)) (hx : Above t x) : Dead rest x := by
  intro r hr ha
  have hc := (List.pairwise_cons.1 h.apart).1 r hr
  rcases hx.linear ha with h' | h'
  · exact hc.1 h'
  · exact hc.2 h'

/-- `l'` comes from `l`: everything in it has an ancestor in `l`. -/
def Comes (l l' : List Term) : Prop := ∀ d ∈ l', ∃ t ∈ l, Above t d

theorem Dead.comes {l l' : List Term} {x : Term} (h : Dead l x) (hc : Comes l l') : Dead l' x := by
  intro d hd ha
  obtain ⟨t, ht, hta⟩ := hc d hd
  exact h t ht (hta.trans ha)

theorem Comes.refl (l : List Term) : Comes l l := fun d hd => ⟨d, hd, .refl⟩

/-- What one step does to the secrets, in the presence of other secrets `R`. -/
structure Safe (l l' : List Term) (used : List Term) : Prop where
  anti : Anti l'
  comes : Comes l l'
  dead : ∀ x ∈ used, Dead l' x ∧ ∃ t ∈ l, Above t x

theorem safe_replace {l l' rest ds us : List Term} {t : Term} (h : Anti l) (p : l.Perm (t :: rest)) (p' : l'.Perm (ds ++ rest))
    (hd : ∀ d ∈ ds, Above t d) (ha : ds.Pairwise Incomp) (hu : ∀ x ∈ us, Above t x ∧ ∀ d ∈ ds, ¬ Above d x) :
    Safe l l' us := by
  have h1 := h.perm p
  have ht : t ∈ l := p.mem_iff.2 (by simp)
  refine ⟨(h1.replace hd ha).perm p'.symm, ?_, ?_⟩
  · intro d hm
    rcases List.mem_append.1 (p'.mem_iff.1 hm) with hm | hm
    · exact ⟨t, ht, hd d hm⟩
    · exact ⟨d, p.mem_iff.2 (by simp [hm]), .refl⟩
  · intro x hx
    refine ⟨?_, t, ht, (hu x hx).1⟩
    intro d hm
    rcases List.mem_append.1 (p'.mem_iff.1 hm) with hm | hm
    · exact (hu x hx).2 d hm
    · exact h1.dead_below (hu x hx).1 d hm

theorem safe_drop {l l' us : List Term} (h : Anti l) (p : l.Perm (us ++ l')) : Safe l l' us := by
  have h1 := h.perm p
  refine ⟨h1.sub (List.sublist_append_right _ _), ?_, ?_⟩
  · intro d hm
    exact ⟨d, p.mem_iff.2 (by simp [hm]), .refl⟩
  · intro x hx
    refine ⟨?_, x, p.mem_iff.2 (by simp [hx]), .refl⟩
    intro d hm
    exact ((List.pairwise_append.1 h1.apart).2.2 x hx d hm).2

macro "perm_count" : tactic => `(tactic|
  (refine List.perm_iff_count.2 (fun a => ?_)
   simp only [State.secrets, ChainTerms.list, List.flatMap_append, List.flatMap_cons, List.flatMap_nil, List.cons_append, List.nil_append,
     List.append_nil, List.append_assoc, List.count_append, List.count_cons, List.count_nil]
   omega))

theorem step_safe {U : Bytes → Prop} {s s' : State} {e : Option Use} (h : Step U s s' e) (R : List Term)
    (ha : Anti (s.secrets ++ R)) : Safe (s.secrets ++ R) (s'.secrets ++ R) (e.toList.flatMap fun u => u.keys.list) := by
  cases h with
  | send root send recv =>
    have hr : Rooted send := ha.rooted _ (by simp [State.secrets])
    obtain ⟨m1, m2⟩ := msg_paths hr
    refine safe_replace (t := send) (rest := root :: recv.flatMap ChainTerms.list ++ R) (ds := [next send]) ha (by perm_count) (by perm_count)
      (by simpa using above_next hr) (by simp) ?_
    intro x hx
    have hx' : x ∈ (msg send).list := by simpa using hx
    exact ⟨(m1 x hx').1, by simpa using (m1 x hx').2.2⟩
  | skip root send pre post n ck l =>
    have hr : Rooted ck := ha.rooted _ (by simp [State.secrets, ChainTerms.list])
    obtain ⟨m1, m2⟩ := msg_paths hr
    refine safe_replace (t := ck) (rest := root :: send :: (pre.flatMap ChainTerms.list ++ (l.flatMap MsgTerms.list ++ (post.flatMap ChainTerms.list ++ R))))
      (ds := next ck :: (msg ck).list) ha (by perm_count) (by perm_count) ?_ ?_ (by simp)
    · intro d hd
      rcases List.mem_cons.1 hd with rfl | hd
      · exact above_next hr
      · exact (m1 d hd).1
    · rw [List.pairwise_cons]
      exact ⟨fun d hd => (m1 d hd).2.symm, m2⟩
  | receive root send pre post n ck l =>
    have hr : Rooted ck := ha.rooted _ (by simp [State.secrets, ChainTerms.list])
    obtain ⟨m1, m2⟩ := msg_paths hr
    refine safe_replace (t := ck) (rest := root :: send :: (pre.flatMap ChainTerms.list ++ (l.flatMap MsgTerms.list ++ (post.flatMap ChainTerms.list ++ R))))
      (ds := [next ck]) ha (by perm_count) (by perm_count) (by simpa using above_next hr) (by simp) ?_
    intro x hx
    have hx' : x ∈ (msg ck).list := by simpa using hx
    exact ⟨(m1 x hx').1, by simpa using (m1 x hx').2.2⟩
  | late root send pre post n ck l r k =>
    refine safe_drop ha ?_
    simp only [Option.toList_some, List.flatMap_cons, List.flatMap_nil, List.append_nil]
    perm_count
  | ratchet root send recv n dh1 dh2 =>
    have hr : Rooted root := ha.rooted _ (by simp [State.secrets])
    obtain ⟨r1, r2, r3⟩ := root_paths hr (dhTerm U dh1)
    have hr' := Rooted.of_above r1 hr
    obtain ⟨q1, q2, q3⟩ := root_paths hr' (dhTerm U dh2)
    have ha' : Anti (root :: (recv.flatMap ChainTerms.list ++ R)) :=
      (ha.perm (l' := send :: root :: (recv.flatMap ChainTerms.list ++ R)) (by perm_count)).sub (List.sublist_cons_self _ _)
    have := safe_replace (l := root :: (recv.flatMap ChainTerms.list ++ R))
      (l' := (State.secrets ⟨rootOf (rootOf root (dhTerm U dh1)) (dhTerm U dh2), chainOf (rootOf root (dhTerm U dh1)) (dhTerm U dh2),
        recv ++ [⟨n, chainOf root (dhTerm U dh1), []⟩]⟩) ++ R) (t := root) (rest := recv.flatMap ChainTerms.list ++ R)
      (us := []) (ds := [rootOf (rootOf root (dhTerm U dh1)) (dhTerm U dh2), chainOf (rootOf root (dhTerm U dh1)) (dhTerm U dh2), chainOf root (dhTerm U dh1)])
      ha' (.refl _) (by perm_count)
      (by simpa using ⟨r1.trans q1, r1.trans q2, r2⟩)
      (by simpa using ⟨⟨q3, r3.below q1 .refl⟩, r3.below q2 .refl⟩) (by simp)
    refine ⟨this.anti, ?_, by simp⟩
    intro d hd
    obtain ⟨t, ht, hta⟩ := this.comes d hd
    refine ⟨t, ?_, hta⟩
    simp only [State.secrets, List.cons_append, List.mem_cons] at ht ⊢
    rcases ht with h | h
    · exact .inl h
    · exact .inr (.inr h)
  | forgetKey root send pre post n ck l r k =>
    have := safe_drop (us := k.list) (l' := (State.secrets ⟨root, send, pre ++ ⟨n, ck, l ++ r⟩ :: post⟩) ++ R) ha (by perm_count)
    exact ⟨this.anti, this.comes, by simp⟩
  | forgetChain root send pre post c =>
    have := safe_drop (us := c.list) (l' := (State.secrets ⟨root, send, pre ++ post⟩) ++ R) ha (by perm_count)
    exact ⟨this.anti, this.comes, by simp⟩

theorem Comes.trans {a b c : List Term} (h1 : Comes a b) (h2 : Comes b c) : Comes a c := by
  intro d hd
  obtain ⟨t, ht, h⟩ := h2 d hd
  obtain ⟨u, hu, h'⟩ := h1 t ht
  exact ⟨u, hu, h'.trans h⟩

theorem run_safe {U : Bytes → Prop} {s s' : State} {es : List Use} (h : Run U s s' es) (R : List Term) (ha : Anti (s.secrets ++ R)) :
    Safe (s.secrets ++ R) (s'.secrets ++ R) (es.flatMap fun u => u.keys.list) := by
  induction h with
  | refl => exact ⟨ha, .refl _, by simp⟩
  | step _ hs ih =>
    have h1 := ih
    have h2 := step_safe hs R h1.anti
    refine ⟨h2.anti, h1.comes.trans h2.comes, ?_⟩
    intro x hx
    rw [List.flatMap_append, List.mem_append] at hx
    rcases hx with hx | hx
    · exact ⟨(h1.dead x hx).1.comes h2.comes, (h1.dead x hx).2⟩
    · refine ⟨(h2.dead x hx).1, ?_⟩
      obtain ⟨t, ht, h⟩ := (h2.dead x hx).2
      obtain ⟨u, hu, h'⟩ := h1.comes t ht
      exact ⟨u, hu, h'.trans h⟩

theorem Safe.not_known {l l' us : List Term} (h : Safe l l' us) (ha : Anti l) {x : Term} (hx : x ∈ us) : ¬ Knows (· ∈ l') x := by
  obtain ⟨hd, t, ht, hta⟩ := h.dead x hx
  exact not_knows h.anti.rooted (Rooted.of_above hta (ha.rooted t ht)) hd

theorem anti_of_atoms {l : List Term} (hat : ∀ t ∈ l, ∃ l v, t = .atom l v ∧ l ≠ [])
    (hd : l.Pairwise fun a b => ∀ l v w, ¬ (a = .atom l v ∧ b = .atom l w)) : Anti l := by
  refine ⟨fun t ht => ?_, ?_⟩
  · obtain ⟨l, v, rfl, -⟩ := hat t ht
    exact .atom l v
  · refine hd.imp_of_mem ?_
    intro a b ha hb hd
    obtain ⟨l, v, rfl, -⟩ := hat a ha
    obtain ⟨l', v', rfl, -⟩ := hat b hb
    have key : ∀ (l l' : List Nat) (v v' : Bytes), Above (.atom l v) (.atom l' v') → Term.atom l v = .atom l' v' := by
      intro l l' v v' h
      cases h with
      | refl => rfl
      | up hp _ => simp [Term.parent] at hp
    constructor
    · intro h
      have := key _ _ _ _ h
      simp only [Term.atom.injEq] at this
      exact hd l v v' ⟨rfl, by rw [this.1]⟩
    · intro h
      have := key _ _ _ _ h
      simp only [Term.atom.injEq] at this
      exact hd l v v' ⟨rfl, by rw [this.1]⟩

theorem Fresh.anti {s : State} (h : Fresh s) : Anti s.secrets := anti_of_atoms h.atoms h.distinct

/-! Everything a run uses could be computed from the state at the start (and the Diffie-Hellman outputs). -/

theorem knows_dh {K : Term → Prop} {U : Bytes → Prop} (hU : ∀ v, U v → K (.atom [] v)) (v : Bytes) : Knows K (dhTerm U v) := by
  unfold dhTerm
  split
  · exact .given (hU _ ‹_›)
  · exact .pub _

theorem knows_T {K : Term → Prop} {prk : Term} (h : Knows K prk) (info : Bytes) :
    Knows K (T1 prk info) ∧ Knows K (T2 prk info) ∧ Knows K (T3 prk info) := by
  have h1 : Knows K (T1 prk info) := .hash h (.pub _)
  have h2 : Knows K (T2 prk info) := .hash h (.cat h1 (.pub _))
  exact ⟨h1, h2, .hash h (.cat h2 (.pub _))⟩

theorem knows_msg {K : Term → Prop} {ck : Term} (h : Knows K ck) : ∀ t ∈ (msg ck).list, Knows K t := by
  obtain ⟨h1, h2, h3⟩ := knows_T (K := K) (prk := msgPrk ck) (.hash (.pub _) (.hash h (.pub _))) (ascii "WhisperMessageKeys")
  simpa [MsgTerms.list, msg] using ⟨h1, h2, h3⟩

theorem knows_next {K : Term → Prop} {ck : Term} (h : Knows K ck) : Knows K (next ck) := .hash h (.pub _)

theorem knows_root {K : Term → Prop} {root dh : Term} (h : Knows K root) (hd : Knows K dh) :
    Knows K (rootOf root dh) ∧ Knows K (chainOf root dh) :=
  let h' := knows_T (K := K) (prk := .hash root dh) (.hash h hd) (ascii "WhisperRatchet")
  ⟨h'.1, h'.2.1⟩

theorem step_known {U : Bytes → Prop} {K : Term → Prop} (hU : ∀ v, U v → K (.atom [] v)) {s s' : State} {e : Option Use} (h : Step U s s' e)
    (hk : ∀ t ∈ s.secrets, Knows K t) : (∀ t ∈ s'.secrets, Knows K t) ∧ ∀ t ∈ e.toList.flatMap (fun u => u.keys.list), Knows K t := by
  cases h with
  | send root send recv =>
    simp only [State.secrets, List.mem_cons, forall_eq_or_imp] at hk ⊢
    exact ⟨⟨hk.1, knows_next hk.2.1, hk.2.2⟩, by simpa using knows_msg hk.2.1⟩
  | skip root send pre post n ck l =>
    simp only [State.secrets, ChainTerms.list, List.flatMap_append, List.flatMap_cons, List.cons_append, List.mem_cons, List.mem_append,
      forall_eq, or_imp, forall_and, List.flatMap_nil, List.append_nil] at hk ⊢
    obtain ⟨a, b, c, d, e, f⟩ := hk
    exact ⟨⟨a, b, c, knows_next d, ⟨e, knows_msg d⟩, f⟩, by simp⟩
  | receive root send pre post n ck l =>
    simp only [State.secrets, ChainTerms.list, List.flatMap_append, List.flatMap_cons, List.cons_append, List.mem_cons, List.mem_append,
      forall_eq, or_imp, forall_and, List.flatMap_nil, List.append_nil] at hk ⊢
    obtain ⟨a, b, c, d, e, f⟩ := hk
    exact ⟨⟨a, b, c, knows_next d, e, f⟩, by simpa using knows_msg d⟩
  | late root send pre post n ck l r k =>
    simp only [State.secrets, ChainTerms.list, List.flatMap_append, List.flatMap_cons, List.cons_append, List.mem_cons, List.mem_append,
      forall_eq, or_imp, forall_and, List.flatMap_nil, List.append_nil] at hk ⊢
    obtain ⟨a, b, c, d, ⟨e, e', e''⟩, f⟩ := hk
    exact ⟨⟨a, b, c, d, ⟨e, e''⟩, f⟩, by simpa using e'⟩
  | ratchet root send recv n dh1 dh2 =>
    simp only [State.secrets, ChainTerms.list, List.flatMap_append, List.flatMap_cons, List.cons_append, List.mem_cons, List.mem_append,
      forall_eq, or_imp, forall_and, List.flatMap_nil, List.append_nil, List.not_mem_nil, false_imp_iff, implies_true, and_true] at hk ⊢
    obtain ⟨a, b, c⟩ := hk
    obtain ⟨r1, c1⟩ := knows_root a (knows_dh hU dh1)
    obtain ⟨r2, c2⟩ := knows_root r1 (knows_dh hU dh2)
    exact ⟨⟨r2, c2, c, c1⟩, by simp⟩
  | forgetKey root send pre post n ck l r k =>
    simp only [State.secrets, ChainTerms.list, List.flatMap_append, List.flatMap_cons, List.cons_append, List.mem_cons, List.mem_append,
      forall_eq, or_imp, forall_and, List.flatMap_nil, List.append_nil] at hk ⊢
    obtain ⟨a, b, c, d, ⟨e, e', e''⟩, f⟩ := hk
    exact ⟨⟨a, b, c, d, ⟨e, e''⟩, f⟩, by simp⟩
  | forgetChain root send pre post c =>
    simp only [State.secrets, ChainTerms.list, List.flatMap_append, List.flatMap_cons, List.cons_append, List.mem_cons, List.mem_append,
      forall_eq, or_imp, forall_and, List.flatMap_nil, List.append_nil] at hk ⊢
    obtain ⟨a, b, c, -, f⟩ := hk
    exact ⟨⟨a, b, c, f.2⟩, by simp⟩

theorem run_known {U : Bytes → Prop} {K : Term → Prop} (hU : ∀ v, U v → K (.atom [] v)) {s s' : State} {es : List Use} (h : Run U s s' es)
    (hk : ∀ t ∈ s.secrets, Knows K t) : (∀ t ∈ s'.secrets, Knows K t) ∧ ∀ t ∈ es.flatMap (fun u => u.keys.list), Knows K t := by
  induction h with
  | refl => exact ⟨hk, by simp⟩
  | step _ hs ih =>
    obtain ⟨h1, h2⟩ := ih
    obtain ⟨h3, h4⟩ := step_known hU hs h1
    refine ⟨h3, fun t ht => ?_⟩
    rw [List.flatMap_append, List.mem_append] at ht
    rcases ht with ht | ht
    · exact h2 t ht
    · exact h4 t ht

/-! Occurrence of a secret. -/

theorem not_knows_mentions {a t : Term} (h : t.mentions a) : ¬ Knows (fun x => ¬ x.mentions a) t := by
  intro hk
  have : ∀ t, Knows (fun x => ¬ x.mentions a) t → ¬ t.mentions a := by
    intro t hk
    induction hk with
    | given h => exact h
    | pub v => exact id
    | hash _ _ i1 i2 => exact fun h => h.elim i1 i2
    | cat _ _ i1 i2 => exact fun h => h.elim i1 i2
    | fst _ ih => exact fun h => ih (.inl h)
    | snd _ ih => exact fun h => ih (.inr h)
  exact this t hk h

theorem mentions_next {a ck : Term} (h : ck.mentions a) : (next ck).mentions a := .inl h

theorem mentions_T {a prk : Term} (h : prk.mentions a) (info : Bytes) :
    (T1 prk info).mentions a ∧ (T2 prk info).mentions a ∧ (T3 prk info).mentions a := ⟨.inl h, .inl h, .inl h⟩

/-- All three keys mention the secret. -/
def MsgTerms.mention (a : Term) (k : MsgTerms) : Prop := ∀ t ∈ k.list, t.mentions a

theorem mentions_msg {a ck : Term} (h : ck.mentions a) : (msg ck).mention a := by
  obtain ⟨h1, h2, h3⟩ := mentions_T (a := a) (prk := msgPrk ck) (.inr (.inl h)) (ascii "WhisperMessageKeys")
  simpa [MsgTerms.mention, MsgTerms.list, msg] using ⟨h1, h2, h3⟩

theorem mentions_root {a root dh : Term} (h : root.mentions a ∨ dh.mentions a) : (rootOf root dh).mentions a ∧ (chainOf root dh).mentions a :=
  ⟨(mentions_T (prk := .hash root dh) h _).1, (mentions_T (prk := .hash root dh) h _).2.1⟩

/-- The root key, the sending chain and every receiving chain outside `old` contain the secret. -/
structure Guarded (a : Term) (old : Bytes → Prop) (s : State) : Prop where
  root : s.root.mentions a
  send : s.send.mentions a
  recv : ∀ c ∈ s.recv, ¬ old c.name → c.ck.mentions a ∧ ∀ k ∈ c.skipped, k.mention a

theorem step_guarded {U : Bytes → Prop} {a : Term} {old : Bytes → Prop} {s s' : State} {e : Option Use} (h : Step U s s' e)
    (hg : Guarded a old s) : Guarded a old s' ∧ ∀ u ∈ e.toList, (∀ n, u.chain = some n → ¬ old n) → u.keys.mention a := by
  obtain ⟨h1, h2, h3⟩ := hg
  have mid : ∀ {pre post : List ChainTerms} {c c' : ChainTerms}, (∀ x ∈ pre ++ c :: post, ¬ old x.name → x.ck.mentions a ∧ ∀ k ∈ x.skipped, k.mention a) →
      (¬ old c'.name → c'.ck.mentions a ∧ ∀ k ∈ c'.skipped, k.mention a) →
      ∀ x ∈ pre ++ c' :: post, ¬ old x.name → x.ck.mentions a ∧ ∀ k ∈ x.skipped, k.mention a := by
    intro pre post c c' h hc x hx
    simp only [List.mem_append, List.mem_cons] at hx
    rcases hx with hx | rfl | hx
    · exact h x (by simp [hx])
    · exact hc
    · exact h x (by simp [hx])
  cases h with
  | send root send recv =>
    refine ⟨⟨h1, mentions_next h2, h3⟩, ?_⟩
    simpa using mentions_msg h2
  | skip root send pre post n ck l =>
    have hc := h3 ⟨n, ck, l⟩ (by simp)
    refine ⟨⟨h1, h2, mid h3 fun ho => ⟨mentions_next (hc ho).1, fun k hk => ?_⟩⟩, by simp⟩
    simp only [List.mem_append, List.mem_singleton] at hk
    rcases hk with hk | rfl
    · exact (hc ho).2 k hk
    · exact mentions_msg (hc ho).1
  | receive root send pre post n ck l =>
    have hc := h3 ⟨n, ck, l⟩ (by simp)
    refine ⟨⟨h1, h2, mid h3 fun ho => ⟨mentions_next (hc ho).1, (hc ho).2⟩⟩, ?_⟩
    simp only [Option.toList_some, List.mem_singleton, forall_eq, Option.some.injEq, forall_eq']
    exact fun ho => mentions_msg (hc ho).1
  | late root send pre post n ck l r k =>
    have hc := h3 ⟨n, ck, l ++ k :: r⟩ (by simp)
    refine ⟨⟨h1, h2, mid h3 fun ho => ⟨(hc ho).1, fun k' hk => (hc ho).2 k' ?_⟩⟩, ?_⟩
    · simp only [List.mem_append, List.mem_cons] at hk ⊢
      rcases hk with h | h
      · exact .inl h
      · exact .inr (.inr h)
    · simp only [Option.toList_some, List.mem_singleton, forall_eq, Option.some.injEq, forall_eq']
      exact fun ho => (hc ho).2 k (by simp)
  | ratchet root send recv n dh1 dh2 =>
    obtain ⟨r1, c1⟩ := mentions_root (a := a) (root := root) (dh := dhTerm U dh1) (.inl h1)
    obtain ⟨r2, c2⟩ := mentions_root (a := a) (root := rootOf root (dhTerm U dh1)) (dh := dhTerm U dh2) (.inl r1)
    refine ⟨⟨r2, c2, ?_⟩, by simp⟩
    intro c hc ho
    simp only [List.mem_append, List.mem_singleton] at hc
    rcases hc with hc | rfl
    · exact h3 c hc ho
    · exact ⟨c1, by simp⟩
  | forgetKey root send pre post n ck l r k =>
    have hc := h3 ⟨n, ck, l ++ k :: r⟩ (by simp)
    refine ⟨⟨h1, h2, mid h3 fun ho => ⟨(hc ho).1, fun k' hk => (hc ho).2 k' ?_⟩⟩, by simp⟩
    simp only [List.mem_append, List.mem_cons] at hk ⊢
    rcases hk with h | h
    · exact .inl h
    · exact .inr (.inr h)
  | forgetChain root send pre post c =>
    refine ⟨⟨h1, h2, fun x hx => h3 x ?_⟩, by simp⟩
    simp only [List.mem_append, List.mem_cons] at hx ⊢
    rcases hx with h | h
    · exact .inl h
    · exact .inr (.inr h)

theorem run_guarded {U : Bytes → Prop} {a : Term} {old : Bytes → Prop} {s s' : State} {es : List Use} (h : Run U s s' es)
    (hg : Guarded a old s) : Guarded a old s' ∧ ∀ u ∈ es, (∀ n, u.chain = some n → ¬ old n) → u.keys.mention a := by
  induction h with
  | refl => exact ⟨hg, by simp⟩
  | step _ hs ih =>
    obtain ⟨h1, h2⟩ := ih
    obtain ⟨h3, h4⟩ := step_guarded hs h1
    refine ⟨h3, fun u hu => ?_⟩
    rcases List.mem_append.1 hu with hu | hu
    · exact h2 u hu
    · exact h4 u hu

theorem dhTerm_unknown {U : Bytes → Prop} {v : Bytes} (h : U v) : dhTerm U v = .atom [] v := by simp [dhTerm, h]

/-- A ratchet step with an unknown second Diffie-Hellman output heals everything but the chains that exist afterwards. -/
theorem heal_send {U : Bytes → Prop} {root : Term} {recv : List ChainTerms} {n dh1 dh2 : Bytes} (hU : U dh2) (old : Bytes → Prop)
    (ho : ∀ c ∈ recv, old c.name) (hn : old n) :
    Guarded (.atom [] dh2) old ⟨rootOf (rootOf root (dhTerm U dh1)) (dhTerm U dh2), chainOf (rootOf root (dhTerm U dh1)) (dhTerm U dh2),
        recv ++ [⟨n, chainOf root (dhTerm U dh1), []⟩]⟩ := by
  obtain ⟨r2, c2⟩ := mentions_root (a := .atom [] dh2) (root := rootOf root (dhTerm U dh1)) (dh := dhTerm U dh2)
    (.inr (by rw [dhTerm_unknown hU]; rfl))
  refine ⟨r2, c2, ?_⟩
  intro c hc h
  simp only [List.mem_append, List.mem_singleton] at hc
  rcases hc with hc | rfl
  · exact absurd (ho c hc) h
  · exact absurd hn h

/-- A ratchet step with an unknown first output also heals the chain it opens. -/
theorem heal_recv {U : Bytes → Prop} {root : Term} {recv : List ChainTerms} {n dh1 dh2 : Bytes} (hU : U dh1) (old : Bytes → Prop)
    (ho : ∀ c ∈ recv, old c.name) :
    Guarded (.atom [] dh1) old ⟨rootOf (rootOf root (dhTerm U dh1)) (dhTerm U dh2), chainOf (rootOf root (dhTerm U dh1)) (dhTerm U dh2),
        recv ++ [⟨n, chainOf root (dhTerm U dh1), []⟩]⟩ := by
  obtain ⟨r1, c1⟩ := mentions_root (a := .atom [] dh1) (root := root) (dh := dhTerm U dh1) (.inr (by rw [dhTerm_unknown hU]; rfl))
  obtain ⟨r2, c2⟩ := mentions_root (a := .atom [] dh1) (root := rootOf root (dhTerm U dh1)) (dh := dhTerm U dh2) (.inl r1)
  refine ⟨r2, c2, ?_⟩
  intro c hc h
  simp only [List.mem_append, List.mem_singleton] at hc
  rcases hc with hc | rfl
  · exact absurd (ho c hc) h
  · exact ⟨c1, by simp⟩

theorem mentions_foldl {a : Term} (l : List Term) (t : Term) (h : t.mentions a ∨ ∃ x ∈ l, x.mentions a) : (l.foldl .cat t).mentions a := by
  induction l generalizing t with
  | nil => exact h.elim id (fun ⟨x, hx, _⟩ => absurd hx (by simp))
  | cons y l ih =>
    apply ih
    rcases h with h | ⟨x, hx, h⟩
    · exact .inl (.inl h)
    · rcases List.mem_cons.1 hx with rfl | hx
      · exact .inl (.inr h)
      · exact .inr ⟨x, hx, h⟩

theorem mentions_x3dh {a : Term} {dhs : List Term} (h : ∃ x ∈ dhs, x.mentions a) : (x3dhRoot dhs).mentions a ∧ (x3dhChain dhs).mentions a := by
  have : (x3dhPrk dhs).mentions a := .inr (mentions_foldl _ _ (.inr h))
  exact ⟨(mentions_T this _).1, (mentions_T this _).2.1⟩

end Verif.Sym
