import Verif.Props.Ratchet
import Verif.Proofs.ToyFlow2
/-
C18 (promotion of archived states), C19 (failed attempts), C09 for live stores, C52 (replacing a session).
-/
set_option linter.unusedSimpArgs false
namespace Verif

/-! ### C18 -/

theorem eraseIdx_mid {α : Type} (pre post : List α) (a : α) : (pre ++ a :: post).eraseIdx pre.length = pre ++ post := by
  simp [List.eraseIdx_append_of_length_le]

theorem drop_last_one {α : Type} (l : List α) (h : l ≠ []) : l.drop (l.length - 1) = [l.getLast h] := by
  induction l with
  | nil => exact absurd rfl h
  | cons a l ih =>
    cases l with
    | nil => rfl
    | cons b l => simpa using ih (by simp)

/-- What the archived list becomes when the archived state at `a` decrypts a message: the former current state first, then
the other archived states in order, **then the old last entry once more**, and the last entry dropped beyond 40. -/
theorem promote_list {E : Env} {pos pos' : Nat} {r r' : Rec} {m : SignalMsg} {x : Bytes × MsgKeys}
    (h : decryptWithRecord E pos r m = (.ok x, r', pos'))
    (hcur : (decryptWithState E (E.rng pos) r.state m).1.isOk = false) :
    ∃ pre a post last, r.prev = pre ++ a :: post ∧ r.prev.getLast? = some last ∧ r'.cur = a ∧
      r'.prev = if r.prev.length < 40 then r.cur :: (pre ++ post ++ [last]) else r.cur :: (pre ++ post ++ [last]).dropLast := by
  rcases decryptWithRecord_cases E pos r m with ⟨x', s', d, h1, h2⟩ | ⟨pre, a, post, x', s', d, r0, pos0, h0, h1, h2, h3, h4⟩ |
    ⟨-, h2⟩ | ⟨r', pos', h2, -⟩
  · rw [h1] at hcur; simp [Res.isOk] at hcur
  · rw [h4] at h; cases h
    have hf := afterFail_frame E m (r.cur :: pre) r pos
    rw [← h2] at hf
    simp only at hf
    have hne : r.prev ≠ [] := by simp [h0]
    refine ⟨pre, a, post, r.prev.getLast hne, h0, List.getLast?_eq_some_getLast hne, rfl, ?_⟩
    have hdrop : r.prev.drop (r.prev.length - 1) = [r.prev.getLast hne] := by
      exact drop_last_one _ hne
    simp only [promoteFound, Rec.promote, Rec.set_cur, hf.1, hf.2.1]
    rw [hdrop]
    have he : r.prev.eraseIdx pre.length = pre ++ post := by rw [h0, eraseIdx_mid]
    rw [he]
    have hl : (pre ++ post).length + 1 = r.prev.length := by simp [h0]; omega
    have hl2 : (r.cur :: (pre ++ post ++ [r.prev.getLast hne])).length = r.prev.length + 1 := by
      simp only [List.length_cons, List.length_append, List.length_nil] at hl ⊢; omega
    rw [show archivedStatesMaxLength = 40 from rfl, hl2]
    by_cases hlt : r.prev.length < 40
    · rw [if_pos hlt, if_neg (by omega)]
    · rw [if_neg hlt, if_pos (by omega)]
      rw [List.dropLast_cons_of_ne_nil (by simp)]
  · rw [h2] at h; simp at h
  · rw [h2] at h; simp at h

/-- **C18 (partial).** With a full archive (40 states) promotion does what it should: the promoted state becomes current, the
former current state the newest archived one, and the others keep their order, with no loss and no duplication.
Missing: fewer than 40 archived states, for which the claim is false. -/
theorem C18_full_archive_partial (E : Env) (pos pos' : Nat) (r r' : Rec) (m : SignalMsg) (x : Bytes × MsgKeys)
    (h : decryptWithRecord E pos r m = (.ok x, r', pos')) (hcur : (decryptWithState E (E.rng pos) r.state m).1.isOk = false)
    (hfull : r.prev.length = 40) :
    ∃ pre a post, r.prev = pre ++ a :: post ∧ r'.cur = a ∧ r'.prev = r.cur :: (pre ++ post) := by
  obtain ⟨pre, a, post, last, h1, h2, h3, h4⟩ := promote_list h hcur
  refine ⟨pre, a, post, h1, h3, ?_⟩
  rw [h4, if_neg (by omega)]
  simp

/-- **C18 is false** for every record with fewer than 40 archived states: after the promotion the archive is one entry too
long, its oldest entry being listed twice (or, if the promoted state was the oldest, being still archived). -/
theorem C18_duplicate_false (E : Env) (pos pos' : Nat) (r r' : Rec) (m : SignalMsg) (x : Bytes × MsgKeys)
    (h : decryptWithRecord E pos r m = (.ok x, r', pos')) (hcur : (decryptWithState E (E.rng pos) r.state m).1.isOk = false)
    (hlt : r.prev.length < 40) :
    ∃ pre a post last, r.prev = pre ++ a :: post ∧ r.prev.getLast? = some last ∧ r'.cur = a ∧
      r'.prev = r.cur :: (pre ++ post ++ [last]) ∧ ((post = [] → last = a) ∧ (post ≠ [] → post.getLast? = some last)) := by
  obtain ⟨pre, a, post, last, h1, h2, h3, h4⟩ := promote_list h hcur
  refine ⟨pre, a, post, last, h1, h2, h3, by rw [h4, if_pos hlt], ?_, ?_⟩
  · rintro rfl; rw [h1] at h2; simp at h2; exact h2.symm
  · intro hp
    rw [h1] at h2
    simp only [List.getLast?_append, List.getLast?_cons] at h2
    cases hg : post.getLast? with
    | none => simp at hg; exact absurd hg hp
    | some y => rw [hg] at h2; simpa using h2

set_option maxRecDepth 100000 in
/-- **Consequence: replay.** With a serialising store the second listing becomes a separate copy that keeps the keys the
current copy consumes.  A message delivered twice (first normally, then again) is decrypted twice. -/
theorem C18_replay_false : ∃ (E : Env) (st st' : Store) (pos pos' pos'' : Nat) (a : Addr) (m : SignalMsg) (x : Bytes × MsgKeys),
    st.decrypt E pos a m = (.ok x, st', pos') ∧ (st'.decrypt E pos'' a m).1 = .ok x :=
  ⟨Toy.bobEnv, Toy.bob5, Toy.bob6, 5, Toy.decM4.2.2, Toy.decM4.2.2, Toy.alice, Toy.msg4, Toy.opened Toy.decM4.1,
    by
      have h1 : Toy.decM4.1 = .ok (Toy.opened Toy.decM4.1) := by decide +kernel
      show Toy.decM4 = _
      rw [← h1]; rfl, by decide +kernel⟩

/-! ### C19 -/

/-- If verification of a message's MAC fails, the key of its position has nevertheless been used up. -/
theorem consumed_of_badMac {E : Env} {s s1 : SState} {d : Option Key32} {m : SignalMsg} {b : Bool}
    (hwf : WFChains E.C s) (hm : m.struct.counter.toNat ≠ 2 ^ 32 - 1)
    (h : decryptWithState E d s m = (.err .badMac, s1, b)) : Consumed E.C s1 m.senderRatchetKey m.struct.counter.toNat := by
  have hwf1 : WFChains E.C s1 := by have := hwf.decrypt d m hm; rw [h] at this; exact this
  refine ⟨hwf1, ?_⟩
  rcases decryptWithState_cases E d s m with ⟨res, d', he, -, h1⟩ | ⟨s0, c, d', hc, -, -, hs0, he⟩
  · exfalso
    rw [he] at h
    simp only [Prod.mk.injEq] at h
    obtain ⟨rfl, -, -⟩ := h
    rcases h1 with h1 | h1 | ⟨-, h1 | h1⟩ <;> simp at h1
  · have hwf0 : ∃ ck0 w, Refines E.C ck0 c w ∧ w.next < 2 ^ 32 := by
      rcases hs0 with ⟨rfl, -⟩ | ⟨hn, -, root, sc, p, r, -, -, -, -, rfl⟩
      · exact hwf.chains c (receiverChain_mem hc).1
      · rcases addReceiverChain_mem (receiverChain_mem hc).1 with hm | rfl
        · exact hwf.chains c hm
        · exact ⟨_, _, refines_new _ _ _ (by simp), by simp [Window.empty]⟩
    obtain ⟨ck0, w, hw, hlt⟩ := hwf0
    have href := recv_refines hw m.struct.counter
    rw [he] at h
    cases ha : Window.accept sessionLimits w m.struct.counter.toNat with
    | none =>
      rw [ha] at href; simp only at href; rw [href] at h
      simp only [Prod.mk.injEq, Res.err.injEq] at h
      have := h.1
      split at this <;> simp at this
    | some pw =>
      obtain ⟨q, w'⟩ := pw
      rw [ha] at href
      obtain ⟨c', hr, hw', hpair⟩ := href
      rw [hr] at h
      simp only [Prod.mk.injEq] at h
      have hb := m.struct.counter.toNat_lt
      have h2 := (C04_window_reading w m.struct.counter.toNat hlt hw.below hw.nodup).2 q w' ha
      have h3 := accept_next ha hlt hw.below
      refine ⟨c', ck0, w', ?_, hw', by omega, h2.2.1, h2.2.2⟩
      rw [← h.2.1, clearPending_receiverChain]
      have hpub : c'.pair.pub = m.senderRatchetKey := by rw [hpair]; exact (receiverChain_mem hc).2
      simp only [SState.receiverChain, SState.modifyChain] at hc ⊢
      rw [find?_modifyFirst _ _ _ (by intro a _; simp [hpub]), hc]; rfl

/-- **C19 is false.** A forged message is enough to destroy a genuine one: after a message fails its MAC check, every message with
the same ratchet key, counter and version is refused by that state as a duplicate. -/
theorem C19_forged_consumes_false (E : Env) (s s1 : SState) (d d' : Option Key32) (forged genuine : SignalMsg) (b : Bool)
    (hwf : WFChains E.C s) (hm : forged.struct.counter.toNat ≠ 2 ^ 32 - 1)
    (h : decryptWithState E d s forged = (.err .badMac, s1, b))
    (hrk : genuine.senderRatchetKey = forged.senderRatchetKey) (hctr : genuine.struct.counter = forged.struct.counter)
    (hver : genuine.struct.version = forged.struct.version) :
    decryptWithState E d' s1 genuine = (.err .oldCounter, s1, false) := by
  obtain ⟨hwf1, c, ck0, w, hc, hw, hlt, hp, hn⟩ := consumed_of_badMac hwf hm h
  have hs : s.senderChain ≠ none := by
    intro hs; simp [decryptWithState, hs] at h
  have hk := decryptWithState_keeps E d s forged hs
  rw [h] at hk
  have hv0 : forged.struct.version = s.version := by
    apply Decidable.by_contra
    intro hne
    cases hsc : s.senderChain with
    | none => exact hs hsc
    | some sc => rw [decryptWithState, hsc] at h; simp [hne] at h
  rw [decryptWithState_existing E d' s1 genuine c hk.1 (by rw [hver, hv0]; exact hk.2.symm) (by rw [hrk]; exact hc), hctr]
  have href := recv_refines hw forged.struct.counter
  have hacc : Window.accept sessionLimits w forged.struct.counter.toNat = none := by
    apply Decidable.by_contra
    intro hne
    have := (C04_window_reading w forged.struct.counter.toNat hlt hw.below hw.nodup).1.1 hne
    rcases this with h1 | h1
    · omega
    · exact hn h1
  rw [hacc] at href
  simp only at href
  rw [href, if_pos (by rw [Window.counter, Nat.mod_eq_of_lt hlt]; exact hp)]

section
open Toy
set_option maxRecDepth 100000
/-- A forgery of Alice's first message: one ciphertext byte changed. -/
def forge (m : SignalMsg) : SignalMsg := { m with struct := { m.struct with cipherText := some [0, 1, 2] } }
/-- Non-vacuity: Bob's fresh state, a forged and a genuine first message. -/
example : decryptWithState bobEnv none (decryptWithState bobEnv (bobEnv.rng 0) bobInit (forge msg1.message)).2.1 msg1.message =
    (.err .oldCounter, (decryptWithState bobEnv (bobEnv.rng 0) bobInit (forge msg1.message)).2.1, false) :=
  C19_forged_consumes_false bobEnv bobInit _ (bobEnv.rng 0) none (forge msg1.message) msg1.message true
    (WFChains.of_nil (by decide +kernel)) (by decide +kernel) (by decide +kernel) rfl rfl rfl

/-- **C19 is false at the level of stored sessions.** A delayed message of an archived session arrives; the current session, tried
first, is ratcheted with the unknown key and, although it fails, is stored in that condition together with the
promoted one.  The peer's next message of that session, which would have been decrypted before, is lost. -/
theorem C19_archived_corrupts_false : ∃ (E : Env) (st st' : Store) (pos pos' : Nat) (a : Addr) (m m' : SignalMsg) (x : Bytes × MsgKeys),
    (st.decrypt E pos a m').1.isOk = true ∧
    st.decrypt E pos a m = (.ok x, st', pos') ∧ (st'.decrypt E pos' a m').1 = .err .noValidSessions :=
  ⟨bobEnv, bob4, bob5, 2, decM3.2.2, alice, msg3, n2, opened decM3.1, by decide +kernel,
    by
      have h1 : decM3.1 = .ok (opened decM3.1) := by decide +kernel
      show decM3 = _
      rw [← h1]; rfl, by decide +kernel⟩

/-- **C09 is false for stores that hand out the live object**: a forged message is refused, and the genuine message, acceptable
before, is refused afterwards. -/
theorem C09_live_false : ∃ (E : Env) (st : LiveStore) (pos : Nat) (a : Addr) (forged genuine : SignalMsg) (e : Err),
    (st.decrypt E pos a genuine).1.isOk = true ∧ (st.decrypt E pos a forged).1 = .err e ∧
    ((st.decrypt E pos a forged).2.1.decrypt E (st.decrypt E pos a forged).2.2 a genuine).1 = .err .noValidSessions :=
  ⟨bobEnv, live bob2, 1, alice, forge msg3, msg3, .noValidSessions, by decide +kernel, by decide +kernel, by decide +kernel⟩
end

/-- **C19 (partial).** Failures found before any key is derived leave the state as it was: uninitialised state, wrong version,
failing random source, and, on a known chain, a counter whose key is gone or one more than 5000 ahead.
Missing: MAC and ciphertext failures, and refusals after a ratchet step (see the theorems above and C07). -/
theorem C19_early_failures_partial (E : Env) (d : Option Key32) (s : SState) (m : SignalMsg) :
    (s.senderChain = none → decryptWithState E d s m = (.err .uninitialized, s, false)) ∧
    (s.senderChain ≠ none → m.struct.version ≠ s.version → decryptWithState E d s m = (.err .wrongVersion, s, false)) ∧
    (s.receiverChain m.senderRatchetKey = none → d = none → (decryptWithState E d s m).1.isOk = false ∧
      (decryptWithState E d s m).2.1 = s) ∧
    (∀ c, s.receiverChain m.senderRatchetKey = some c → s.senderChain ≠ none → m.struct.version = s.version →
      (m.struct.counter < c.chainKey.index ∧ (∀ k ∈ c.msgKeys, k.index ≠ m.struct.counter) →
        decryptWithState E d s m = (.err .oldCounter, s, false)) ∧
      (c.chainKey.index.toNat + 5000 < m.struct.counter.toNat →
        decryptWithState E d s m = (.err .tooFarFuture, s, false))) := by
  refine ⟨fun h => by simp [decryptWithState, h], fun h1 h2 => ?_, fun h1 h2 => ?_, fun c hc hs hv => ⟨fun h => ?_, fun h => ?_⟩⟩
  · cases hsc : s.senderChain with
    | none => exact absurd hsc h1
    | some sc => simp [decryptWithState, hsc, h2]
  · rcases decryptWithState_cases E d s m with ⟨res, d', hd, hno, -⟩ | ⟨s1, c, d', hc, -, -, hs1, -⟩
    · rw [hd]; exact ⟨hno, rfl⟩
    · exfalso
      rcases hs1 with ⟨rfl, -⟩ | ⟨-, -, _, _, _, r, -, -, -, hr, -⟩
      · rw [h1] at hc; simp at hc
      · rw [h2] at hr; simp at hr
  · rw [decryptWithState_existing E d s m c hs hv hc]
    have : c.recv E.C m.struct.counter = (.err .oldCounter, c) := by
      unfold Chain.recv
      rw [if_pos h.1]
      have hf : c.msgKeys.find? (fun k => k.index == m.struct.counter) = none := by
        rw [List.find?_eq_none]; intro k hk; simpa using h.2 k hk
      rw [hf]
    rw [this]
  · exact (C07_boundary_partial E d s m c hs hv hc (by omega)).2 (by omega)

/-- **C19, the exact effect of a failed attempt.** What an attempt leaves in memory depends on the version, ratchet key and counter the message names and on nothing else in
it: two messages that agree in these leave the same state (and use the random source alike), whatever their MACs and ciphertexts, except that
a success also clears the pending prekey.  So a failure changes a state exactly as the genuine message with that header would have. -/
theorem C19_failure_effect_exact (E : Env) (d : Option Key32) (s : SState) (m m' : SignalMsg)
    (hv : m.struct.version = m'.struct.version) (hk : m.senderRatchetKey = m'.senderRatchetKey) (hc : m.struct.counter = m'.struct.counter) :
    (decryptWithState E d s m).2.2 = (decryptWithState E d s m').2.2 ∧
    ((decryptWithState E d s m).1.isOk = false → (decryptWithState E d s m').1.isOk = false →
      (decryptWithState E d s m).2.1 = (decryptWithState E d s m').2.1) ∧
    ((decryptWithState E d s m).1.isOk = true → (decryptWithState E d s m').1.isOk = false →
      (decryptWithState E d s m).2.1 = { (decryptWithState E d s m').2.1 with pendingPreKey := none }) := by
  have key : ∃ (t : SState) (b : Bool), ∀ x : SignalMsg, x.struct.version = m'.struct.version → x.senderRatchetKey = m'.senderRatchetKey →
      x.struct.counter = m'.struct.counter → (decryptWithState E d s x).2.2 = b ∧
        (decryptWithState E d s x).2.1 = if (decryptWithState E d s x).1.isOk then { t with pendingPreKey := none } else t := by
    cases hsc : s.senderChain with
    | none => exact ⟨s, false, fun x _ _ _ => by simp [decryptWithState, hsc, Res.isOk]⟩
    | some sc =>
      by_cases hver : m'.struct.version = s.version
      case neg => exact ⟨s, false, fun x h _ _ => by simp [decryptWithState, hsc, h, hver, Res.isOk]⟩
      rcases h1 : getOrCreateChainKey E.C d s m'.senderRatchetKey with ⟨_ | _ | _, s1, b⟩
      case ok ck =>
        rcases h2 : getOrCreateMessageKeys E.C s1 m'.senderRatchetKey ck m'.struct.counter with ⟨_ | _ | _, s2⟩
        case ok mk =>
          refine ⟨s2, b, fun x h h' h'' => ?_⟩
          simp only [decryptWithState, hsc, h, hver, ne_eq, not_true_eq_false, if_false, h', h1, h'', h2]
          cases x.verifyMac E.C E.S s.version s2.remoteIdentity s2.localIdentity mk.macKey with
          | ok u => cases decryptBody E.C mk (x.struct.cipherText.getD []) <;> simp [Res.isOk]
          | err e => simp [Res.isOk]
          | panic => simp [Res.isOk]
        all_goals exact ⟨s2, b, fun x h h' h'' => by simp [decryptWithState, hsc, h, hver, h', h1, h'', h2, Res.isOk]⟩
      all_goals exact ⟨s1, b, fun x h h' h'' => by simp [decryptWithState, hsc, h, hver, h', h1, Res.isOk]⟩
  obtain ⟨t, b, ht⟩ := key
  obtain ⟨a1, a2⟩ := ht m hv hk hc
  obtain ⟨b1, b2⟩ := ht m' rfl rfl rfl
  refine ⟨a1.trans b1.symm, fun h h' => ?_, fun h h' => ?_⟩
  · rw [a2, b2, h, h']
  · rw [a2, b2, h, h']; rfl

section
open Toy
set_option maxRecDepth 100000

/-- A concrete case: a genuine message and its forgery with the same header; one succeeds, the other does not. -/
example : (decryptWithState bobEnv (bobEnv.rng 0) bobInit msg1.message).1.isOk = true ∧
    (decryptWithState bobEnv (bobEnv.rng 0) bobInit (forge msg1.message)).1.isOk = false ∧
    (decryptWithState bobEnv (bobEnv.rng 0) bobInit (forge msg1.message)).2.1 ≠ bobInit :=
  ⟨by decide +kernel, by decide +kernel, by decide +kernel⟩
end

end Verif
