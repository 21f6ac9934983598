import Verif.Proofs.Decrypt
/- Invariants of session states under decryption. -/
set_option linter.unusedSimpArgs false
namespace Verif

/-- Every receiving chain is in a window that has not passed position 2^32 - 1, and no two chains
have the same ratchet key. -/
structure WFChains (C : Crypto) (s : SState) : Prop where
  distinct : (s.receiverChains.map (·.pair.pub)).Nodup
  chains : ∀ c ∈ s.receiverChains, ∃ ck0 w, Refines C ck0 c w ∧ w.next < 2 ^ 32

theorem receiverChain_mem {s : SState} {eph : Key32} {c : Chain} (h : s.receiverChain eph = some c) :
    c ∈ s.receiverChains ∧ c.pair.pub = eph := by
  refine ⟨List.mem_of_find?_eq_some h, ?_⟩
  have := List.find?_some h
  simpa using this

theorem receiverChain_of_mem {s : SState} (hd : (s.receiverChains.map (·.pair.pub)).Nodup) {c : Chain}
    (h : c ∈ s.receiverChains) : s.receiverChain c.pair.pub = some c := by
  unfold SState.receiverChain
  generalize s.receiverChains = l at *
  induction l with
  | nil => simp at h
  | cons a l ih =>
    simp only [List.map_cons, List.nodup_cons] at hd
    rw [List.find?_cons]
    rcases List.mem_cons.1 h with rfl | h
    · simp
    · have : a.pair.pub ≠ c.pair.pub := fun e => hd.1 (e ▸ List.mem_map_of_mem h)
      rw [beq_eq_false_iff_ne.2 this]
      exact ih hd.2 h

theorem modifyChain_pubs (s : SState) (eph : Key32) (f : Chain → Chain) (c : Chain) (hc : s.receiverChain eph = some c)
    (hf : (f c).pair = c.pair) :
    (s.modifyChain eph f).receiverChains.map (·.pair.pub) = s.receiverChains.map (·.pair.pub) := by
  unfold SState.modifyChain SState.receiverChain at *
  simp only
  generalize s.receiverChains = l at *
  induction l with
  | nil => rfl
  | cons a l ih =>
    simp only [modifyFirst]
    split
    · rename_i h
      rw [List.find?_cons, h] at hc
      simp only [Option.some.injEq] at hc
      subst hc
      simp [hf]
    · rename_i h
      rw [List.find?_cons] at hc
      simp only [h] at hc
      simp [ih hc]

theorem addReceiverChain_mem {s : SState} {eph : Key32} {ck : ChainKey} {c : Chain}
    (h : c ∈ (s.addReceiverChain eph ck).receiverChains) : c ∈ s.receiverChains ∨ c = ⟨⟨eph, none⟩, ck, []⟩ := by
  simp only [SState.addReceiverChain] at h
  split at h
  · have := List.mem_of_mem_drop h
    simpa using this
  · simpa using h

theorem addReceiverChain_distinct {s : SState} {eph : Key32} {ck : ChainKey} (hd : (s.receiverChains.map (·.pair.pub)).Nodup)
    (hn : s.receiverChain eph = none) : ((s.addReceiverChain eph ck).receiverChains.map (·.pair.pub)).Nodup := by
  have : ((s.receiverChains ++ [(⟨⟨eph, none⟩, ck, []⟩ : Chain)]).map (·.pair.pub)).Nodup := by
    rw [List.map_append, List.nodup_append]
    refine ⟨hd, by simp, ?_⟩
    intro a ha b hb
    simp at hb; subst hb
    simp only [List.mem_map] at ha
    obtain ⟨c, hc, rfl⟩ := ha
    simp only [SState.receiverChain, List.find?_eq_none] at hn
    simpa using hn c hc
  simp only [SState.addReceiverChain]
  split
  · rw [List.map_drop]; exact this.sublist (List.drop_sublist _ _)
  · exact this

theorem ratchetStep_chains (C : Crypto) (s : SState) (eph : Key32) (root : Bytes) (i : UInt32) (p r : Key32) :
    (ratchetStep C s eph root i p r).receiverChains =
      (s.addReceiverChain eph (kdfRoot C root (C.dh eph p)).chain).receiverChains := rfl

theorem clearPending_chains (b : Bool) (s : SState) : (clearPending b s).receiverChains = s.receiverChains := by
  cases b <;> rfl

@[simp] theorem clearPending_receiverChain (b : Bool) (s : SState) (k : Key32) :
    (clearPending b s).receiverChain k = s.receiverChain k := by cases b <;> rfl

theorem accept_next {L : Window.Limits} {w w' : Window} {c p : Nat} (h : Window.accept L w c = some (p, w'))
    (hw : w.next < 2 ^ 32) (hn : ∀ q ∈ w.skipped, q < w.next) : p = c ∧ p < w'.next ∧ w'.next ≤ max w.next (c + 1) ∧ w.next ≤ w'.next := by
  unfold Window.accept at h
  have e : Window.counter w.next = w.next := Nat.mod_eq_of_lt hw
  rw [e] at h
  split at h
  · split at h
    · rename_i q hq
      simp only [Option.some.injEq, Prod.mk.injEq] at h
      obtain ⟨rfl, rfl⟩ := h
      have := List.find?_some hq
      have hlt := hn q (List.mem_of_find?_eq_some hq)
      simp only [decide_eq_true_eq] at this
      rw [Window.counter, Nat.mod_eq_of_lt (by omega)] at this
      refine ⟨this, hlt, ?_, Nat.le_refl _⟩
      simp only; omega
    · simp at h
  · split at h
    · simp only [Option.some.injEq, Prod.mk.injEq] at h
      obtain ⟨rfl, rfl⟩ := h
      simp only
      omega
    · simp at h

/-- Decrypting any message keeps the chains well-formed, unless its counter is 2^32 - 1. -/
theorem WFChains.decrypt {E : Env} {s : SState} (h : WFChains E.C s) (draw : Option Key32) (m : SignalMsg)
    (hm : m.struct.counter.toNat ≠ 2 ^ 32 - 1) : WFChains E.C (decryptWithState E draw s m).2.1 := by
  rcases decryptWithState_cases E draw s m with ⟨res, d, he, -, -⟩ | ⟨s1, c, d, hc, -, -, hs1, he⟩
  · rw [he]; exact h
  · have h1 : WFChains E.C s1 := by
      rcases hs1 with ⟨rfl, -⟩ | ⟨hn, -, root, sc, p, r, -, -, -, -, rfl⟩
      · exact h
      · refine ⟨addReceiverChain_distinct h.distinct hn, ?_⟩
        intro c hc
        rcases addReceiverChain_mem hc with hc | rfl
        · exact h.chains c hc
        · exact ⟨_, _, refines_new _ _ _ (by simp), by simp [Window.empty]⟩
    rw [he]
    cases hr : c.recv E.C m.struct.counter with
    | mk r c' =>
      cases r with
      | err e => exact h1
      | panic => exact h1
      | ok mk =>
        simp only
        have hp : c'.pair = c.pair := by have := recv_pair E.C c m.struct.counter; rw [hr] at this; exact this
        refine ⟨?_, ?_⟩
        · rw [clearPending_chains, modifyChain_pubs _ _ _ _ hc hp]
          exact h1.distinct
        · rw [clearPending_chains]
          intro x hx
          rcases mem_modifyFirst hx with hx | ⟨a, ha, hfa, rfl⟩
          · exact h1.chains x hx
          · obtain ⟨ck0, w, hw, hlt⟩ := h1.chains c (receiverChain_mem hc).1
            have hb := m.struct.counter.toNat_lt
            have := recv_refines hw m.struct.counter
            rw [hr] at this
            cases ha : Window.accept sessionLimits w m.struct.counter.toNat with
            | none => rw [ha] at this; simp at this
            | some pw =>
              obtain ⟨p, w'⟩ := pw
              rw [ha] at this
              simp only [Prod.mk.injEq] at this
              obtain ⟨c'', ⟨-, rfl⟩, hw', -⟩ := this
              have := accept_next ha hlt hw.below
              exact ⟨ck0, w', hw', by omega⟩

/-- A state without receiving chains (a new one, or one built by a responder) is well-formed. -/
theorem WFChains.of_nil {C : Crypto} {s : SState} (h : s.receiverChains = []) : WFChains C s :=
  ⟨by simp [h], by simp [h]⟩

end Verif
