import Verif.Props.Crash
import Verif.Spec.Talk
/- Session states of the two parties of a conversation refine Spec/Talk. -/
set_option linter.unusedSimpArgs false
namespace Verif

/-- Two lists of the same length, related elementwise. -/
inductive All2 {α β : Type} (R : α → β → Prop) : List α → List β → Prop
  | nil : All2 R [] []
  | cons {a b l m} : R a b → All2 R l m → All2 R (a :: l) (b :: m)

/-- Root and chain key of turn `k`, given the keys agreed at the start and the ratchet private keys of all turns. -/
def level (C : Crypto) (k0 : SessionKeys) (es : Nat → Key32) : Nat → SessionKeys
  | 0 => k0
  | k + 1 => kdfRoot C (level C k0 es k).root (C.dh (C.basePub (es k)) (es (k + 1)))

theorem level_congr {C : Crypto} {k0 : SessionKeys} {es es' : Nat → Key32} {k : Nat} (h : ∀ j ≤ k, es' j = es j) :
    level C k0 es' k = level C k0 es k := by
  induction k with
  | zero => rfl
  | succ k ih =>
    simp only [level]
    rw [ih (fun j hj => h j (by omega)), h k (by omega), h (k + 1) (by omega)]

theorem level_index {C : Crypto} {k0 : SessionKeys} (h0 : k0.chain.index = 0) (es : Nat → Key32) (k : Nat) :
    (level C k0 es k).chain.index = 0 := by
  cases k with
  | zero => exact h0
  | succ k => simp [level]

/-- One receiving chain against one remembered turn. -/
structure ChainFor (C : Crypto) (k0 : SessionKeys) (es : Nat → Key32) (c : Chain) (x : Nat × Window) : Prop where
  pub : c.pair.pub = C.basePub (es x.1)
  refines : Refines C (level C k0 es x.1).chain c x.2
  bound : x.2.next < 2 ^ 32

/-- The session state of a party against the specification. -/
structure Holds (C : Crypto) (k0 : SessionKeys) (es : Nat → Key32) (me peer : Key32) (s : SState) (p : Talk.Party) : Prop where
  version : s.version = currentVersion
  loc : s.localIdentity = some me
  rem : s.remoteIdentity = some peer
  base : s.senderBaseKey ≠ none
  root : s.rootKey = some (level C k0 es p.turn).root
  sender : s.senderChain = some ⟨⟨C.basePub (es p.turn), some (es p.turn)⟩, (level C k0 es p.turn).chain.iter C p.sent, []⟩
  chains : All2 (ChainFor C k0 es) s.receiverChains p.inbox
  levels : ∀ x ∈ p.inbox, x.1 + 1 ≤ p.turn ∧ (x.1 + 1) % 2 = p.turn % 2
  nodup : (p.inbox.map (·.1)).Nodup
  short : p.inbox.length ≤ 5
  start : k0.chain.index = 0

/-- A message as built by the sender: number `i` of turn `k`. -/
structure Honest (C : Crypto) (S : Ser SMStruct) (k0 : SessionKeys) (es : Nat → Key32) (sender receiver : Key32) (k i : Nat) (text : Bytes) (m : SignalMsg) : Prop where
  ratchet : m.senderRatchetKey = C.basePub (es k)
  counter : m.struct.counter.toNat = i
  small : i + 1 < 2 ^ 32
  version : m.struct.version = currentVersion
  mac : m.verifyMac C S m.struct.version (some sender) (some receiver) (((level C k0 es k).chain.iter C i).msgKeys C).macKey = .ok ()
  body : decryptBody C (((level C k0 es k).chain.iter C i).msgKeys C) (m.struct.cipherText.getD []) = .ok text

theorem ChainFor.congr {C : Crypto} {k0 : SessionKeys} {es es' : Nat → Key32} {c : Chain} {x : Nat × Window}
    (h : ChainFor C k0 es c x) (he : ∀ j ≤ x.1, es' j = es j) : ChainFor C k0 es' c x :=
  ⟨by rw [h.pub, he _ (Nat.le_refl _)], by rw [level_congr he]; exact h.refines, h.bound⟩

theorem all2_imp_mem {α β : Type} {R S : α → β → Prop} {l : List α} {m : List β} (h : All2 R l m)
    (hi : ∀ a b, b ∈ m → R a b → S a b) : All2 S l m := by
  induction h with
  | nil => exact .nil
  | cons h1 _ ih => exact .cons (hi _ _ List.mem_cons_self h1) (ih fun a b hb => hi a b (List.mem_cons_of_mem _ hb))

theorem Holds.congr {C : Crypto} {k0 : SessionKeys} {es es' : Nat → Key32} {me peer : Key32} {s : SState} {p : Talk.Party}
    (h : Holds C k0 es me peer s p) (he : ∀ j ≤ p.turn, es' j = es j) : Holds C k0 es' me peer s p :=
  { h with
    root := by rw [level_congr he]; exact h.root
    sender := by rw [level_congr he, he _ (Nat.le_refl _)]; exact h.sender
    chains := all2_imp_mem h.chains fun c x hx hc => hc.congr fun j hj => he j (by have := (h.levels x hx).1; omega) }

theorem Honest.congr {C : Crypto} {S : Ser SMStruct} {k0 : SessionKeys} {es es' : Nat → Key32} {a b : Key32} {k i : Nat} {text : Bytes} {m : SignalMsg}
    (h : Honest C S k0 es a b k i text m) (he : ∀ j ≤ k, es' j = es j) : Honest C S k0 es' a b k i text m :=
  { h with
    ratchet := by rw [he _ (Nat.le_refl _)]; exact h.ratchet
    mac := by rw [level_congr he]; exact h.mac
    body := by rw [level_congr he]; exact h.body }

/-- Looking a turn up by its ratchet key. -/
theorem all2_find {C : Crypto} {k0 : SessionKeys} {es : Nat → Key32} {cs : List Chain} {xs : List (Nat × Window)} {k : Nat}
    (h : All2 (ChainFor C k0 es) cs xs) (hd : ∀ x ∈ xs, C.basePub (es x.1) = C.basePub (es k) → x.1 = k) :
    match xs.find? (fun x => x.1 == k) with
    | some x => ∃ c, cs.find? (fun c => c.pair.pub == C.basePub (es k)) = some c ∧ ChainFor C k0 es c x ∧ x.1 = k ∧ x ∈ xs
    | none => cs.find? (fun c => c.pair.pub == C.basePub (es k)) = none := by
  induction h with
  | nil => simp
  | @cons c x cs xs h1 _ ih =>
    have ih := ih fun y hy => hd y (List.mem_cons_of_mem _ hy)
    by_cases hx : x.1 = k
    · have e : (c.pair.pub == C.basePub (es k)) = true := by rw [h1.pub, hx]; simp
      rw [List.find?_cons, List.find?_cons, e]
      have e' : (x.1 == k) = true := by simpa using hx
      rw [e']
      exact ⟨c, rfl, h1, hx, List.mem_cons_self⟩
    · have e : (c.pair.pub == C.basePub (es k)) = false := by
        rw [h1.pub, beq_eq_false_iff_ne]
        intro he
        exact hx (hd x List.mem_cons_self he)
      have e' : (x.1 == k) = false := by simpa using hx
      rw [List.find?_cons, List.find?_cons, e, e']
      cases hf : xs.find? (fun x => x.1 == k) with
      | none => rw [hf] at ih; exact ih
      | some y =>
        rw [hf] at ih
        obtain ⟨c', h2, h3, h4, h5⟩ := ih
        exact ⟨c', h2, h3, h4, List.mem_cons_of_mem _ h5⟩

/-- Updating the chain of one turn. -/
theorem all2_modify {C : Crypto} {k0 : SessionKeys} {es : Nat → Key32} {cs : List Chain} {xs : List (Nat × Window)} {k : Nat}
    {c' : Chain} {w' : Window} (h : All2 (ChainFor C k0 es) cs xs)
    (hd : ∀ x ∈ xs, C.basePub (es x.1) = C.basePub (es k) → x.1 = k) (hn : (xs.map (·.1)).Nodup)
    (hc : ChainFor C k0 es c' (k, w')) :
    All2 (ChainFor C k0 es) (modifyFirst (fun c => c.pair.pub == C.basePub (es k)) (fun _ => c') cs)
      (xs.map fun x => if x.1 = k then (k, w') else x) := by
  induction h with
  | nil => exact .nil
  | @cons c x cs xs h1 h2 ih =>
    simp only [List.map_cons, List.nodup_cons] at hn
    by_cases hx : x.1 = k
    · have e : (c.pair.pub == C.basePub (es k)) = true := by rw [h1.pub, hx]; simp
      simp only [modifyFirst, e, if_true, List.map_cons, hx]
      refine .cons hc ?_
      have : xs.map (fun x => if x.1 = k then (k, w') else x) = xs := by
        conv => rhs; rw [← List.map_id xs]
        apply List.map_congr_left
        intro y hy
        have : y.1 ≠ k := fun e => hn.1 (by rw [hx, ← e]; exact List.mem_map_of_mem hy)
        simp [this]
      rw [this]; exact h2
    · have e : (c.pair.pub == C.basePub (es k)) = false := by
        rw [h1.pub, beq_eq_false_iff_ne]
        exact fun he => hx (hd x List.mem_cons_self he)
      simp only [modifyFirst, e, Bool.false_eq_true, if_false, List.map_cons, hx]
      exact .cons h1 (ih (fun y hy => hd y (List.mem_cons_of_mem _ hy)) hn.2)

theorem all2_drop {α β : Type} {R : α → β → Prop} {l : List α} {m : List β} (h : All2 R l m) (n : Nat) :
    All2 R (l.drop n) (m.drop n) := by
  induction h generalizing n with
  | nil => simp only [List.drop_nil]; exact .nil
  | cons h1 h2 ih =>
    cases n with
    | zero => exact .cons h1 h2
    | succ n => simpa using ih n

theorem all2_length {α β : Type} {R : α → β → Prop} {l : List α} {m : List β} (h : All2 R l m) : l.length = m.length := by
  induction h with
  | nil => rfl
  | cons _ _ ih => simp [ih]

theorem all2_append {α β : Type} {R : α → β → Prop} {l l' : List α} {m m' : List β} (h : All2 R l m) (h' : All2 R l' m') :
    All2 R (l ++ l') (m ++ m') := by
  induction h with
  | nil => exact h'
  | cons h1 _ ih => exact .cons h1 ih

/-- A message with the right keys opens. -/
theorem Honest.openWith {C : Crypto} {E : Env} (hC : E.C = C) {S : Ser SMStruct} (hS : E.S = S) {k0 : SessionKeys} {es : Nat → Key32} {a b : Key32}
    {k i : Nat} {text : Bytes} {m : SignalMsg} (h : Honest C S k0 es a b k i text m) :
    openWith E (some a) (some b) m (((level C k0 es k).chain.iter C i).msgKeys C) =
      .ok (text, ((level C k0 es k).chain.iter C i).msgKeys C) := by
  unfold Verif.openWith
  rw [hC, hS, h.mac]
  simp only [Res.bind_ok, h.body, Res.map_ok]

theorem Holds.init {C : Crypto} {k0 : SessionKeys} {es : Nat → Key32} {me peer : Key32} {s : SState} {p : Talk.Party}
    (h : Holds C k0 es me peer s p) : s.Initialised :=
  ⟨by rw [h.loc]; simp, by rw [h.rem]; simp, by rw [h.root]; simp, h.base, by rw [h.sender]; simp⟩

theorem accept_small {w w' : Window} {i q : Nat} (h : Window.accept sessionLimits w i = some (q, w')) (hw : w.next < 2 ^ 32)
    (hb : ∀ p ∈ w.skipped, p < w.next) (hi : i + 1 < 2 ^ 32) : q = i ∧ w'.next < 2 ^ 32 := by
  have := accept_next h hw hb
  omega

/-- Receiving a message of a remembered turn. -/
theorem Holds.receive_old {C : Crypto} {E : Env} (hC : E.C = C) {S : Ser SMStruct} (hS : E.S = S) {k0 : SessionKeys} {es : Nat → Key32} {me peer : Key32}
    {s : SState} {p : Talk.Party} (h : Holds C k0 es me peer s p) {k i : Nat} {text : Bytes} {m : SignalMsg}
    (hm : Honest C S k0 es peer me k i text m) (draw : Option Key32) {x : Nat × Window}
    (hd : ∀ x ∈ p.inbox, C.basePub (es x.1) = C.basePub (es k) → x.1 = k)
    (hx : p.inbox.find? (fun x => x.1 == k) = some x) :
    match Window.accept Talk.limits x.2 i with
    | some (_, w') => ∃ mk s', decryptWithState E draw s m = (.ok (text, mk), s', false) ∧
        Holds C k0 es me peer s' { p with inbox := p.inbox.map fun x => if x.1 = k then (k, w') else x } ∧
        s'.pendingPreKey = none ∧ s'.senderBaseKey = s.senderBaseKey
    | none => ∃ e, decryptWithState E draw s m = (.err e, s, false) := by
  have hf := all2_find h.chains hd
  rw [hx] at hf
  obtain ⟨c, hfc, hch, rfl, hmem⟩ := hf
  have hrc : s.receiverChain m.senderRatchetKey = some c := by rw [hm.ratchet]; exact hfc
  rw [decryptWithState_existing E draw s m c (by rw [h.sender]; simp) (by rw [hm.version, h.version]) hrc]
  have hr := recv_refines hch.refines m.struct.counter
  rw [hm.counter] at hr
  rw [show Talk.limits = sessionLimits from rfl, hC]
  cases ha : Window.accept sessionLimits x.2 i with
  | none =>
    rw [ha] at hr
    simp only [hr]
    exact ⟨_, rfl⟩
  | some qw =>
    obtain ⟨q, w'⟩ := qw
    rw [ha] at hr
    simp only at hr
    obtain ⟨c', hrec, href, hpair⟩ := hr
    obtain ⟨rfl, hw'⟩ := accept_small ha hch.bound hch.refines.below hm.small
    simp only [hrec, h.rem, h.loc, hm.openWith hC hS, Res.isOk, clearPending, if_true]
    refine ⟨_, _, rfl, ?_, rfl, rfl⟩
    refine ⟨h.version, h.loc, h.rem, h.base, h.root, h.sender, ?_, ?_, ?_, by simpa using h.short, h.start⟩
    · simp only [SState.modifyChain, hm.ratchet]
      exact all2_modify h.chains hd h.nodup ⟨by rw [hpair, hch.pub], href, hw'⟩
    · intro y hy
      simp only [List.mem_map] at hy
      obtain ⟨z, hz, rfl⟩ := hy
      have := h.levels z hz
      by_cases e : z.1 = x.1
      · rw [if_pos e]; exact h.levels x hmem
      · rw [if_neg e]; exact this
    · have : (p.inbox.map fun y => if y.1 = x.1 then (x.1, w') else y).map (·.1) = p.inbox.map (·.1) := by
        rw [List.map_map]
        apply List.map_congr_left
        intro y _
        simp only [Function.comp]
        split
        · rename_i e; exact e.symm
        · rfl
      simp only [this]; exact h.nodup

/-- Receiving the first message of a new turn. -/
theorem Holds.receive_new {C : Crypto} (hdh : C.DhLaw) {E : Env} (hC : E.C = C) {S : Ser SMStruct} (hS : E.S = S) {k0 : SessionKeys} {es : Nat → Key32}
    {me peer : Key32} {s : SState} {p : Talk.Party} (h : Holds C k0 es me peer s p) {i : Nat} {text : Bytes} {m : SignalMsg}
    (hm : Honest C S k0 es peer me (p.turn + 1) i text m) (r : Key32)
    (hd : ∀ x ∈ p.inbox, C.basePub (es x.1) = C.basePub (es (p.turn + 1)) → x.1 = p.turn + 1) :
    match Window.accept Talk.limits Window.empty i with
    | some (_, w') => ∃ mk s', decryptWithState E (some r) s m = (.ok (text, mk), s', true) ∧
        Holds C k0 (upd es (p.turn + 2) (clamp r)) me peer s'
          { turn := p.turn + 2, sent := 0, inbox := Window.lastN 5 (p.inbox ++ [(p.turn + 1, w')]) } ∧
        s'.pendingPreKey = none ∧ s'.senderBaseKey = s.senderBaseKey
    | none => ∃ e s', decryptWithState E (some r) s m = (.err e, s', true) := by
  have hno : p.inbox.find? (fun x => x.1 == p.turn + 1) = none := by
    rw [List.find?_eq_none]
    intro x hx
    have := (h.levels x hx).1
    simp; omega
  have hf := all2_find h.chains hd
  rw [hno] at hf
  have hrc : s.receiverChain m.senderRatchetKey = none := by rw [hm.ratchet]; exact hf
  have hv : m.struct.version = s.version := by rw [hm.version, h.version]
  have hchain := ratchetStep_chain C s m.senderRatchetKey (level C k0 es p.turn).root ((level C k0 es p.turn).chain.iter C p.sent).index
    (es p.turn) (clamp r) hrc
  -- the new receiving chain is that of turn `p.turn + 1`
  have hlev : kdfRoot C (level C k0 es p.turn).root (C.dh m.senderRatchetKey (es p.turn)) = level C k0 es (p.turn + 1) := by
    rw [hm.ratchet, hdh]; rfl
  rw [decryptWithState_new E s m (level C k0 es p.turn).root _ (es p.turn) r hv hrc h.root h.sender rfl none, hC]
  generalize hs1 : ratchetStep C s m.senderRatchetKey (level C k0 es p.turn).root
    (⟨⟨C.basePub (es p.turn), some (es p.turn)⟩, (level C k0 es p.turn).chain.iter C p.sent, []⟩ : Chain).chainKey.index (es p.turn) (clamp r) = s1
  have hs1c : s1.receiverChain m.senderRatchetKey = some ⟨⟨m.senderRatchetKey, none⟩, (level C k0 es (p.turn + 1)).chain, []⟩ := by
    rw [← hs1, ← hlev]; exact hchain
  rw [decryptWithState_existing E none s1 m _ (by rw [← hs1]; simp [ratchetStep, SState.setSenderChain]) (by rw [← hs1]; exact hv) hs1c]
  have href0 := refines_new C ⟨m.senderRatchetKey, none⟩ _ (level_index (C := C) h.start es (p.turn + 1))
  have hr := recv_refines href0 m.struct.counter
  rw [hm.counter] at hr
  rw [show Talk.limits = sessionLimits from rfl, hC]
  have h1rem : s1.remoteIdentity = some peer := by rw [← hs1]; exact h.rem
  have h1loc : s1.localIdentity = some me := by rw [← hs1]; exact h.loc
  cases ha : Window.accept sessionLimits Window.empty i with
  | none =>
    rw [ha] at hr
    simp only [hr]
    exact ⟨_, _, rfl⟩
  | some qw =>
    obtain ⟨q, w'⟩ := qw
    rw [ha] at hr
    simp only at hr
    obtain ⟨c', hrec, href, hpair⟩ := hr
    obtain ⟨rfl, hw'⟩ := accept_small ha (by simp [Window.empty]) (by simp [Window.empty]) hm.small
    simp only [hrec, h1rem, h1loc, hm.openWith hC hS, Res.isOk, clearPending, if_true]
    refine ⟨_, _, rfl, ?_, rfl, by rw [← hs1]; rfl⟩
    have hes : ∀ j ≤ p.turn + 1, upd es (p.turn + 2) (clamp r) j = es j := by
      intro j hj; unfold upd; rw [if_neg (by omega)]
    have hes2 : upd es (p.turn + 2) (clamp r) (p.turn + 2) = clamp r := by simp [upd]
    have hlev2 : level C k0 (upd es (p.turn + 2) (clamp r)) (p.turn + 2) =
        kdfRoot C (level C k0 es (p.turn + 1)).root (C.dh (C.basePub (es (p.turn + 1))) (clamp r)) := by
      rw [level, level_congr hes, hes2, hes _ (Nat.le_refl _)]
    have hlev2' : kdfRoot C (kdfRoot C (level C k0 es p.turn).root (C.dh m.senderRatchetKey (es p.turn))).root (C.dh m.senderRatchetKey (clamp r)) =
        level C k0 (upd es (p.turn + 2) (clamp r)) (p.turn + 2) := by
      rw [hlev2, hlev, hm.ratchet]
    have hcs : s1.receiverChains = (s.addReceiverChain m.senderRatchetKey (level C k0 es (p.turn + 1)).chain).receiverChains := by
      rw [← hs1, ratchetStep_chains, hlev]
    have hlenR := all2_length h.chains
    refine ⟨by rw [← hs1]; exact h.version, h1loc, h1rem, by rw [← hs1]; exact h.base, ?_, ?_, ?_, ?_, ?_, lastN_length _ _, h.start⟩
    · show s1.rootKey = _
      rw [← hs1, ← hlev2']; rfl
    · show s1.senderChain = _
      rw [hes2, ← hlev2', ← hs1]; rfl
    · -- the chains
      have hnone : ∀ c ∈ s.receiverChains, (c.pair.pub == m.senderRatchetKey) = false := by
        intro c hc
        simp only [SState.receiverChain, List.find?_eq_none] at hrc
        simpa using hrc c hc
      have hmod : ∀ (l : List Chain) (c0 : Chain), (∀ c ∈ l, (c.pair.pub == m.senderRatchetKey) = false) → (c0.pair.pub == m.senderRatchetKey) = true →
          modifyFirst (fun c => c.pair.pub == m.senderRatchetKey) (fun _ => c') (l ++ [c0]) = l ++ [c'] := by
        intro l c0 hl h0
        induction l with
        | nil => simp [modifyFirst, h0]
        | cons a l ih =>
          rw [List.cons_append, modifyFirst, if_neg (by rw [hl a List.mem_cons_self]; simp), ih (fun c hc => hl c (List.mem_cons_of_mem _ hc))]
          rfl
      have hnew : ChainFor C k0 (upd es (p.turn + 2) (clamp r)) c' (p.turn + 1, w') := by
        refine ChainFor.congr (es := es) ⟨?_, href, hw'⟩ (fun j hj => hes j hj)
        rw [hpair, hm.ratchet]
      have hold : All2 (ChainFor C k0 (upd es (p.turn + 2) (clamp r))) s.receiverChains p.inbox :=
        all2_imp_mem h.chains fun c x hx hc => hc.congr fun j hj => hes j (by have := (h.levels x hx).1; omega)
      have hall := all2_append hold (.cons hnew .nil)
      simp only [SState.modifyChain, hcs, SState.addReceiverChain]
      have e5 : maxReceiverChains = 5 := rfl
      by_cases hlen : maxReceiverChains < (s.receiverChains ++ [(⟨⟨m.senderRatchetKey, none⟩, (level C k0 es (p.turn + 1)).chain, []⟩ : Chain)]).length
      · rw [if_pos hlen]
        rw [List.length_append, List.length_singleton] at hlen
        rw [List.drop_append_of_le_length (by omega), hmod _ _ (fun c hc => hnone c (List.mem_of_mem_drop hc)) (by simp),
          ← List.drop_append_of_le_length (by omega)]
        have e6 : Window.lastN 5 (p.inbox ++ [(p.turn + 1, w')]) = (p.inbox ++ [(p.turn + 1, w')]).drop (p.inbox.length + 1 - 5) := by
          simp [Window.lastN]
        rw [e6]
        have hsh := h.short
        rw [show p.inbox.length + 1 - 5 = 1 by omega]
        exact all2_drop hall 1
      · rw [if_neg hlen, hmod _ _ hnone (by simp)]
        rw [List.length_append, List.length_singleton] at hlen
        rw [lastN_of_le (by simp; omega)]
        exact hall
    · intro x hx
      have hx := (lastN_sublist 5 _).subset hx
      simp only [List.mem_append, List.mem_singleton] at hx
      rcases hx with hx | rfl
      · have := h.levels x hx; simp only; omega
      · exact ⟨Nat.le_refl _, rfl⟩
    · have hsub := (lastN_sublist 5 (p.inbox ++ [(p.turn + 1, w')])).map (·.1)
      refine List.Nodup.sublist hsub ?_
      rw [List.map_append, List.nodup_append]
      refine ⟨h.nodup, by simp, ?_⟩
      intro a ha b hb
      simp only [List.mem_map] at ha
      obtain ⟨y, hy, rfl⟩ := ha
      have := (h.levels y hy).1
      simp only [List.map_cons, List.map_nil, List.mem_singleton] at hb
      omega

end Verif
