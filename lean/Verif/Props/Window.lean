import Verif.Proofs.States
import Verif.Proofs.ToyFlow
/-
C04 (receive window), C05 (no replay), C07 (future limit), C49 (forward secrecy of consumed keys).
-/
set_option linter.unusedSimpArgs false
namespace Verif

/-- Decrypting a list of messages with one session state (each with the random draw it may use),
collecting the results; session/cipher.go:236-279 applied repeatedly. -/
def decryptMany (E : Env) : SState → List (Option Key32 × SignalMsg) → List (Res (Bytes × MsgKeys)) × SState
  | s, [] => ([], s)
  | s, (d, m) :: ms =>
    let r := decryptWithState E d s m
    let rest := decryptMany E r.2.1 ms
    (r.1 :: rest.1, rest.2)

/-- How a result agrees with the window specification: rejected messages give the duplicate or
too-far-in-the-future error; accepted ones are verified and decrypted with the key of exactly their
position of the chain starting at `ck0`. -/
def Agrees (E : Env) (ck0 : ChainKey) (remote loc : Option Key32) :
    List SignalMsg → List (Res (Bytes × MsgKeys)) → List (Option Nat) → Prop
  | [], [], [] => True
  | m :: ms, r :: rs, a :: as =>
    (match a with
     | none => r = .err .oldCounter ∨ r = .err .tooFarFuture
     | some p => r = openWith E remote loc m ((ck0.iter E.C p).msgKeys E.C)) ∧ Agrees E ck0 remote loc ms rs as
  | _, _, _ => False

theorem not_mem_eraseP {l : List Nat} (h : l.Nodup) {q : Nat → Bool} {c : Nat} (hq : ∀ p ∈ l, q p = decide (p = c)) :
    c ∉ l.eraseP q := by
  induction l with
  | nil => simp
  | cons a l ih =>
    simp only [List.nodup_cons] at h
    rw [List.eraseP_cons, hq a (by simp)]
    by_cases hac : a = c
    · subst hac; simpa using h.1
    · simp only [hac, decide_false, cond_false, List.mem_cons, not_or]
      exact ⟨fun e => hac e.symm, ih h.2 (fun p hp => hq p (by simp [hp]))⟩

/-- **C04.** For every sequence of messages on one receiving chain, in any order, with any
counters, including repetitions and forged ones: the accepted messages are exactly those the receive
window accepts (limit 5000 ahead, 2000 remembered), and each accepted message is checked and decrypted with
the key at exactly the position the window assigns to it. -/
theorem C04_receive_window (E : Env) (s : SState) (rk : Key32) (c : Chain) (ck0 : ChainKey) (w : Window)
    (hs : s.senderChain ≠ none) (hc : s.receiverChain rk = some c) (hw : Refines E.C ck0 c w)
    (ms : List (Option Key32 × SignalMsg))
    (hms : ∀ m ∈ ms, m.2.senderRatchetKey = rk ∧ m.2.struct.version = s.version) :
    Agrees E ck0 s.remoteIdentity s.localIdentity (ms.map (·.2)) (decryptMany E s ms).1
        (Window.run sessionLimits w (ms.map (·.2.struct.counter.toNat))).1 ∧
      ∃ c', (decryptMany E s ms).2.receiverChain rk = some c' ∧
        Refines E.C ck0 c' (Window.run sessionLimits w (ms.map (·.2.struct.counter.toNat))).2 := by
  induction ms generalizing s c w with
  | nil => exact ⟨trivial, c, hc, hw⟩
  | cons dm ms ih =>
    obtain ⟨d, m⟩ := dm
    obtain ⟨hrk, hv⟩ := hms (d, m) List.mem_cons_self
    simp only at hrk hv
    have hex := decryptWithState_existing E d s m c hs hv (by rw [hrk]; exact hc)
    have href := recv_refines hw m.struct.counter
    simp only [decryptMany, List.map_cons, Window.run]
    cases ha : Window.accept sessionLimits w m.struct.counter.toNat with
    | none =>
      rw [ha] at href
      simp only at href
      rw [href] at hex
      simp only at hex
      have := ih s c w hs hc hw (fun x hx => hms x (List.mem_cons_of_mem _ hx))
      simp only [hex]
      refine ⟨⟨?_, this.1⟩, this.2⟩
      show (_ = Res.err Err.oldCounter ∨ _ = Res.err Err.tooFarFuture)
      by_cases hlt : m.struct.counter.toNat < Window.counter w.next
      · rw [if_pos hlt]; exact .inl rfl
      · rw [if_neg hlt]; exact .inr rfl
    | some pw =>
      obtain ⟨p, w1⟩ := pw
      rw [ha] at href
      obtain ⟨c1, hr, hw1, hp⟩ := href
      rw [hr] at hex
      simp only at hex
      have hc1 : (s.modifyChain rk (fun _ => c1)).receiverChain rk = some c1 := by
        simp only [SState.receiverChain, SState.modifyChain] at hc ⊢
        have hpub : c1.pair.pub = rk := by
          rw [hp]; exact (receiverChain_mem hc).2
        rw [find?_modifyFirst _ _ _ (by intro a _; simp [hpub]), hc]; rfl
      rw [hrk] at hex
      generalize hopen : openWith E s.remoteIdentity s.localIdentity m ((ck0.iter E.C p).msgKeys E.C) = o at hex
      have hid : ∀ b, (clearPending b (s.modifyChain rk (fun _ => c1))).remoteIdentity = s.remoteIdentity ∧
          (clearPending b (s.modifyChain rk (fun _ => c1))).localIdentity = s.localIdentity ∧
          (clearPending b (s.modifyChain rk (fun _ => c1))).senderChain = s.senderChain ∧
          (clearPending b (s.modifyChain rk (fun _ => c1))).version = s.version := by
        intro b; cases b <;> exact ⟨rfl, rfl, rfl, rfl⟩
      have := ih (clearPending o.isOk (s.modifyChain rk (fun _ => c1))) c1 w1 (by rw [(hid _).2.2.1]; exact hs)
        (by rw [clearPending_receiverChain]; exact hc1) hw1
        (fun x hx => by rw [(hid _).2.2.2]; exact hms x (List.mem_cons_of_mem _ hx))
      rw [(hid _).1, (hid _).2.1] at this
      simp only [hex]
      exact ⟨⟨hopen.symm, this.1⟩, this.2⟩

/-- How to read the window specification while positions stay below 2^32: a counter is accepted
exactly when it is between `next` and `next + 5000` or among the remembered skipped ones, and the position
assigned is the counter itself, which afterwards is neither ahead of the window nor remembered. -/
theorem C04_window_reading (w : Window) (c : Nat) (hw : w.next < 2 ^ 32) (hb : ∀ p ∈ w.skipped, p < w.next)
    (hnd : w.skipped.Nodup) :
    (Window.accept sessionLimits w c ≠ none ↔ (w.next ≤ c ∧ c ≤ w.next + 5000) ∨ c ∈ w.skipped) ∧
    (∀ p w', Window.accept sessionLimits w c = some (p, w') → p = c ∧ c < w'.next ∧ c ∉ w'.skipped) := by
  have e : Window.counter w.next = w.next := Nat.mod_eq_of_lt hw
  have hcount : ∀ p ∈ w.skipped, Window.counter p = p := fun p hp => Nat.mod_eq_of_lt (by have := hb p hp; omega)
  constructor
  · unfold Window.accept
    rw [e]
    by_cases hlt : c < w.next
    · rw [if_pos hlt]
      cases hf : w.skipped.find? (fun p => decide (Window.counter p = c)) with
      | none =>
        simp only [ne_eq, not_true_eq_false, false_iff, not_or]
        refine ⟨by omega, fun hm => ?_⟩
        rw [List.find?_eq_none] at hf
        have := hf c hm
        simp [hcount c hm] at this
      | some p =>
        have h1 := List.find?_some hf
        have h2 := List.mem_of_find?_eq_some hf
        simp only [decide_eq_true_eq, hcount p h2] at h1
        simp only [ne_eq, reduceCtorEq, not_false_eq_true, true_iff]
        exact .inr (h1 ▸ h2)
    · rw [if_neg hlt]
      have hnm : c ∉ w.skipped := fun h => by have := hb c h; omega
      show (if c - w.next ≤ 5000 then _ else none) ≠ none ↔ _
      split
      · simp; omega
      · simp [hnm]; omega
  · intro p w' h
    have hn := accept_next h hw hb
    refine ⟨hn.1, hn.1 ▸ hn.2.1, ?_⟩
    unfold Window.accept at h
    rw [e] at h
    split at h
    · split at h
      · simp only [Option.some.injEq, Prod.mk.injEq] at h
        obtain ⟨rfl, rfl⟩ := h
        simp only
        exact not_mem_eraseP hnd (fun p hp => by simp [hcount p hp])
      · simp at h
    · split at h
      · simp only [Option.some.injEq, Prod.mk.injEq] at h
        obtain ⟨rfl, rfl⟩ := h
        simp only
        intro hm
        have := (lastN_sublist _ _).subset hm
        simp only [List.mem_append, List.mem_map, List.mem_range] at this
        rcases this with h1 | ⟨i, hi, hi'⟩
        · have := hb c h1; omega
        · omega
      · simp at h

section
open Toy
set_option maxRecDepth 100000
/-- Alice's chain for Bob's signed prekey. -/
def c04Chain : Chain := (aliceInit.receiverChain signedPre.pub).getD ⟨⟨key 0, none⟩, ⟨[], 0⟩, []⟩
/-- Non-vacuity of C04: messages 1, 0, 1 of a chain Alice has just created. -/
example : ∃ c', (decryptMany aliceEnv aliceInit [(none, early2), (none, early1), (none, early2)]).2.receiverChain signedPre.pub
      = some c' ∧ Refines aliceEnv.C c04Chain.chainKey c' ⟨2, []⟩ :=
  (C04_receive_window aliceEnv aliceInit signedPre.pub c04Chain c04Chain.chainKey Window.empty (by decide +kernel) (by decide +kernel)
    ⟨by decide +kernel, rfl, by decide +kernel, by decide, by simp [Window.empty], by simp [Window.empty]⟩
    [(none, early2), (none, early1), (none, early2)] (by decide +kernel)).2
example : (decryptMany aliceEnv aliceInit [(none, early2), (none, early1), (none, early2)]).1.map (·.map (·.1)) =
    [.ok [6], .ok [5], .err .oldCounter] := by decide +kernel
end

/-! ### C05 -/

/-- The chain for ratchet key `rk` is present in the state before, between and after the messages:
it has not been dropped as the oldest of more than five. -/
def Retains (E : Env) (rk : Key32) : SState → List (Option Key32 × SignalMsg) → Prop
  | s, [] => s.receiverChain rk ≠ none
  | s, (d, m) :: ms => s.receiverChain rk ≠ none ∧ Retains E rk (decryptWithState E d s m).2.1 ms

/-- The position `p` of the chain `rk` has been used up. -/
def Consumed (C : Crypto) (s : SState) (rk : Key32) (p : Nat) : Prop :=
  WFChains C s ∧ ∃ c ck0 w, s.receiverChain rk = some c ∧ Refines C ck0 c w ∧ w.next < 2 ^ 32 ∧ p < w.next ∧ p ∉ w.skipped

theorem accept_mono {L : Window.Limits} {w w' : Window} {c p q : Nat} (hw : w.next < 2 ^ 32)
    (hp : p < w.next) (hn : p ∉ w.skipped) (h : Window.accept L w c = some (q, w')) :
    p < w'.next ∧ p ∉ w'.skipped ∧ q ≠ p := by
  have e : Window.counter w.next = w.next := Nat.mod_eq_of_lt hw
  unfold Window.accept at h
  rw [e] at h
  split at h
  · split at h
    · rename_i q' hq
      simp only [Option.some.injEq, Prod.mk.injEq] at h
      obtain ⟨rfl, rfl⟩ := h
      refine ⟨hp, fun hm => hn (List.mem_of_mem_eraseP hm), ?_⟩
      rintro rfl
      exact hn (List.mem_of_find?_eq_some hq)
    · simp at h
  · split at h
    · simp only [Option.some.injEq, Prod.mk.injEq] at h
      obtain ⟨rfl, rfl⟩ := h
      refine ⟨by simp only; omega, ?_, by omega⟩
      simp only
      intro hm
      have := (lastN_sublist _ _).subset hm
      simp only [List.mem_append, List.mem_map, List.mem_range] at this
      rcases this with h1 | ⟨i, hi, hi'⟩
      · exact hn h1
      · omega
    · simp at h

/-- Chains of other ratchet keys are not touched. -/
theorem receiverChain_other {C : Crypto} {s : SState} (hwf : WFChains C s) {E : Env} (draw : Option Key32) (m : SignalMsg) (rk : Key32)
    (hne : m.senderRatchetKey ≠ rk) (c : Chain) (h : (decryptWithState E draw s m).2.1.receiverChain rk = some c) :
    s.receiverChain rk = some c := by
  rcases decryptWithState_cases E draw s m with ⟨res, d, he, -, -⟩ | ⟨s1, c1, d, hc, -, -, hs1, he⟩
  · rw [he] at h; exact h
  · have h1 : s1.receiverChain rk = some c := by
      rw [he] at h
      cases hr : c1.recv E.C m.struct.counter with
      | mk r c' =>
        rw [hr] at h
        cases r with
        | err e => exact h
        | panic => exact h
        | ok mk =>
          simp only [clearPending_receiverChain] at h
          have hp : c'.pair = c1.pair := by have := recv_pair E.C c1 m.struct.counter; rw [hr] at this; exact this
          simp only [SState.receiverChain, SState.modifyChain] at h ⊢
          rwa [find?_modifyFirst_ne] at h
          intro a ha
          have ha : a.pair.pub = m.senderRatchetKey := by simpa using ha
          have hc' : c'.pair.pub = m.senderRatchetKey := by rw [hp]; exact (receiverChain_mem hc).2
          simp [ha, hc', hne]
    rcases hs1 with ⟨rfl, -⟩ | ⟨hn, -, root, sc, p, r, -, -, -, -, rfl⟩
    · exact h1
    · have := receiverChain_mem h1
      rcases addReceiverChain_mem this.1 with hm | rfl
      · rw [← this.2]; exact receiverChain_of_mem hwf.distinct hm
      · exact absurd this.2 hne

theorem Consumed.step {E : Env} {s : SState} {rk : Key32} {p : Nat} (h : Consumed E.C s rk p) (d : Option Key32) (m : SignalMsg)
    (hm : m.struct.counter.toNat ≠ 2 ^ 32 - 1) (hret : (decryptWithState E d s m).2.1.receiverChain rk ≠ none) :
    Consumed E.C (decryptWithState E d s m).2.1 rk p := by
  obtain ⟨hwf, c, ck0, w, hc, hw, hlt, hp, hn⟩ := h
  refine ⟨hwf.decrypt d m hm, ?_⟩
  by_cases hrk : m.senderRatchetKey = rk
  · subst hrk
    rcases decryptWithState_cases E d s m with ⟨res, d', he, -, -⟩ | ⟨s1, c1, d', hc1, -, -, hs1, he⟩
    · rw [he]; exact ⟨c, ck0, w, hc, hw, hlt, hp, hn⟩
    · rcases hs1 with ⟨rfl, -⟩ | ⟨hnone, -⟩
      · rw [hc] at hc1; cases hc1
        rw [he]
        have href := recv_refines hw m.struct.counter
        cases ha : Window.accept sessionLimits w m.struct.counter.toNat with
        | none =>
          rw [ha] at href
          simp only at href
          rw [href]
          exact ⟨c, ck0, w, hc, hw, hlt, hp, hn⟩
        | some pw =>
          obtain ⟨q, w'⟩ := pw
          rw [ha] at href
          obtain ⟨c', hr, hw', hpair⟩ := href
          rw [hr]
          have hb := m.struct.counter.toNat_lt
          have h1 := accept_next ha hlt hw.below
          have h2 := accept_mono hlt hp hn ha
          refine ⟨c', ck0, w', ?_, hw', by omega, h2.1, h2.2.1⟩
          simp only [clearPending_receiverChain]
          have hpub : c'.pair.pub = m.senderRatchetKey := by rw [hpair]; exact (receiverChain_mem hc).2
          simp only [SState.receiverChain, SState.modifyChain] at hc ⊢
          rw [find?_modifyFirst _ _ _ (by intro a _; simp [hpub]), hc]; rfl
      · rw [hc] at hnone; simp at hnone
  · cases hx : (decryptWithState E d s m).2.1.receiverChain rk with
    | none => exact absurd hx hret
    | some x =>
      have := receiverChain_other hwf d m rk hrk x hx
      rw [hc] at this; cases this
      exact ⟨c, ck0, w, rfl, hw, hlt, hp, hn⟩

/-- After a successful decryption the message's position is used up. -/
theorem consumed_of_ok {E : Env} {s s1 : SState} {d : Option Key32} {m : SignalMsg} {x : Bytes × MsgKeys} {b : Bool}
    (hwf : WFChains E.C s) (hm : m.struct.counter.toNat ≠ 2 ^ 32 - 1)
    (h : decryptWithState E d s m = (.ok x, s1, b)) : Consumed E.C s1 m.senderRatchetKey m.struct.counter.toNat := by
  have hwf1 : WFChains E.C s1 := by have := hwf.decrypt d m hm; rw [h] at this; exact this
  refine ⟨hwf1, ?_⟩
  rcases decryptWithState_cases E d s m with ⟨res, d', he, hno, -⟩ | ⟨s0, c, d', hc, -, -, hs0, he⟩
  · rw [he] at h; cases h; simp [Res.isOk] at hno
  · have hwf0 : ∃ ck0 w, Refines E.C ck0 c w ∧ w.next < 2 ^ 32 := by
      rcases hs0 with ⟨rfl, -⟩ | ⟨hn, -, root, sc, p, r, -, -, -, -, rfl⟩
      · exact hwf.chains c (receiverChain_mem hc).1
      · rcases addReceiverChain_mem (receiverChain_mem hc).1 with hm | rfl
        · exact hwf.chains c hm
        · exact ⟨_, _, refines_new _ _ _ (by simp), by simp [Window.empty]⟩
    obtain ⟨ck0, w, hw, hlt⟩ := hwf0
    have href := recv_refines hw m.struct.counter
    rw [he] at h
    cases ha : Window.accept sessionLimits w m.struct.counter.toNat with
    | none => rw [ha] at href; simp only at href; rw [href] at h; simp at h
    | some pw =>
      obtain ⟨q, w'⟩ := pw
      rw [ha] at href
      obtain ⟨c', hr, hw', hpair⟩ := href
      rw [hr] at h
      simp only [Prod.mk.injEq] at h
      have hb := m.struct.counter.toNat_lt
      have h1 := C04_window_reading w m.struct.counter.toNat hlt hw.below hw.nodup
      have h2 := h1.2 q w' ha
      have h3 := accept_next ha hlt hw.below
      refine ⟨c', ck0, w', ?_, hw', by omega, h2.2.1, h2.2.2⟩
      rw [← h.2.1, clearPending_receiverChain]
      have hpub : c'.pair.pub = m.senderRatchetKey := by rw [hpair]; exact (receiverChain_mem hc).2
      simp only [SState.receiverChain, SState.modifyChain] at hc ⊢
      rw [find?_modifyFirst _ _ _ (by intro a _; simp [hpub]), hc]; rfl

theorem consumed_many {E : Env} {s : SState} {rk : Key32} {p : Nat} (h : Consumed E.C s rk p)
    (ms : List (Option Key32 × SignalMsg)) (hms : ∀ m ∈ ms, m.2.struct.counter.toNat ≠ 2 ^ 32 - 1)
    (hret : Retains E rk s ms) : Consumed E.C (decryptMany E s ms).2 rk p := by
  induction ms generalizing s with
  | nil => exact h
  | cons dm ms ih =>
    obtain ⟨d, m⟩ := dm
    have hnext : (decryptWithState E d s m).2.1.receiverChain rk ≠ none := by
      have := hret.2
      cases ms with
      | nil => exact this
      | cons x xs => exact this.1
    exact ih (h.step d m (hms (d, m) (by simp)) hnext) (fun x hx => hms x (by simp [hx])) hret.2

/-- **C05.** Once a message has been decrypted with a session state, then after any sequence of
further messages (genuine or not, on this chain or others) during which the chain is retained, every
message with the same ratchet key and counter is refused as a duplicate and changes nothing.
(Chains carry fewer than 2^32 messages: no counter is 2^32 - 1.) -/
theorem C05_no_replay (E : Env) (s s1 : SState) (d d' : Option Key32) (m m' : SignalMsg) (x : Bytes × MsgKeys) (b : Bool)
    (hwf : WFChains E.C s) (h : decryptWithState E d s m = (.ok x, s1, b))
    (ms : List (Option Key32 × SignalMsg))
    (hcount : m.struct.counter.toNat ≠ 2 ^ 32 - 1 ∧ ∀ m ∈ ms, m.2.struct.counter.toNat ≠ 2 ^ 32 - 1)
    (hret : Retains E m.senderRatchetKey s1 ms)
    (hrk : m'.senderRatchetKey = m.senderRatchetKey) (hctr : m'.struct.counter = m.struct.counter)
    (hver : m'.struct.version = (decryptMany E s1 ms).2.version)
    (hinit : (decryptMany E s1 ms).2.senderChain ≠ none) :
    decryptWithState E d' (decryptMany E s1 ms).2 m' = (.err .oldCounter, (decryptMany E s1 ms).2, false) := by
  obtain ⟨-, c, ck0, w, hc, hw, hlt, hp, hn⟩ := consumed_many (consumed_of_ok hwf hcount.1 h) ms hcount.2 hret
  rw [decryptWithState_existing E d' _ m' c hinit hver (by rw [hrk]; exact hc)]
  have href := recv_refines hw m'.struct.counter
  have hb := m'.struct.counter.toNat_lt
  have hread := (C04_window_reading w m'.struct.counter.toNat hlt hw.below hw.nodup).1
  have hnone : Window.accept sessionLimits w m'.struct.counter.toNat = none := by
    cases ha : Window.accept sessionLimits w m'.struct.counter.toNat with
    | none => rfl
    | some pw =>
      have := hread.1 (by rw [ha]; simp)
      rw [hctr] at this
      rcases this with h1 | h1
      · omega
      · exact absurd h1 hn
  rw [hnone] at href
  simp only at href
  rw [href]
  simp only
  rw [if_pos (by rw [Window.counter, Nat.mod_eq_of_lt hlt, hctr]; exact hp)]

/-- The session keeps its sending chain and version while decrypting. -/
theorem decryptWithState_keeps (E : Env) (d : Option Key32) (s : SState) (m : SignalMsg) (hs : s.senderChain ≠ none) :
    (decryptWithState E d s m).2.1.senderChain ≠ none ∧ (decryptWithState E d s m).2.1.version = s.version := by
  rcases decryptWithState_cases E d s m with ⟨res, d', he, -, -⟩ | ⟨s1, c, d', hc, h1, -, hs1, he⟩
  · rw [he]; exact ⟨hs, rfl⟩
  · have hv : s1.version = s.version := by
      rcases hs1 with ⟨rfl, -⟩ | ⟨-, -, root, sc, p, r, -, -, -, -, rfl⟩ <;> rfl
    rw [he]
    split
    · constructor
      · generalize Res.isOk _ = b; cases b <;> exact h1
      · generalize Res.isOk _ = b; cases b <;> exact hv
    · exact ⟨h1, hv⟩
    · exact ⟨h1, hv⟩

/-- **C05, as stated:** when everything decrypted in between is on the same chain, the chain is
retained and the state stays initialised, so no further hypotheses are needed. -/
theorem C05_no_replay_same_chain (E : Env) (s s1 : SState) (d d' : Option Key32) (m m' : SignalMsg) (x : Bytes × MsgKeys) (b : Bool)
    (hwf : WFChains E.C s) (h : decryptWithState E d s m = (.ok x, s1, b))
    (ms : List (Option Key32 × SignalMsg)) (hsame : ∀ m1 ∈ ms, m1.2.senderRatchetKey = m.senderRatchetKey)
    (hcount : m.struct.counter.toNat ≠ 2 ^ 32 - 1 ∧ ∀ m ∈ ms, m.2.struct.counter.toNat ≠ 2 ^ 32 - 1)
    (hrk : m'.senderRatchetKey = m.senderRatchetKey) (hctr : m'.struct.counter = m.struct.counter)
    (hver : m'.struct.version = m.struct.version) :
    decryptWithState E d' (decryptMany E s1 ms).2 m' = (.err .oldCounter, (decryptMany E s1 ms).2, false) := by
  have hsn : s.senderChain ≠ none := by
    intro hn
    rw [decryptWithState, hn] at h; simp at h
  have hv0 : m.struct.version = s.version := by
    apply Decidable.by_contra
    intro hne
    cases hsc : s.senderChain with
    | none => exact hsn hsc
    | some sc => rw [decryptWithState, hsc] at h; simp [hne] at h
  have hk := decryptWithState_keeps E d s m hsn
  rw [h] at hk
  simp only at hk
  have hret0 : s1.receiverChain m.senderRatchetKey ≠ none := by
    obtain ⟨-, c, _, _, hc, -⟩ := consumed_of_ok hwf hcount.1 h
    rw [hc]; simp
  have key : ∀ (ms : List (Option Key32 × SignalMsg)) (s1 : SState),
      (∀ m1 ∈ ms, m1.2.senderRatchetKey = m.senderRatchetKey) → s1.senderChain ≠ none →
      s1.receiverChain m.senderRatchetKey ≠ none →
      Retains E m.senderRatchetKey s1 ms ∧ (decryptMany E s1 ms).2.senderChain ≠ none ∧
        (decryptMany E s1 ms).2.version = s1.version := by
    intro ms
    induction ms with
    | nil => intro s1 _ h2 h3; exact ⟨h3, h2, rfl⟩
    | cons dm ms ih =>
      intro s1 h1 h2 h3
      obtain ⟨d1, m1⟩ := dm
      have hk1 := decryptWithState_keeps E d1 s1 m1 h2
      have hr1 : (decryptWithState E d1 s1 m1).2.1.receiverChain m.senderRatchetKey ≠ none := by
        have hm1 : m1.senderRatchetKey = m.senderRatchetKey := h1 (d1, m1) (by simp)
        rcases decryptWithState_cases E d1 s1 m1 with ⟨res, d', he, -, -⟩ | ⟨s2, c, d', hc, -, -, hs2, he⟩
        · rw [he]; exact h3
        · rw [hm1] at hc
          rw [he]
          cases hr : c.recv E.C m1.struct.counter with
          | mk r c' =>
            cases r with
            | err e => simp [hc]
            | panic => simp [hc]
            | ok mk =>
              simp only [clearPending_receiverChain, hm1]
              have hp : c'.pair = c.pair := by have := recv_pair E.C c m1.struct.counter; rw [hr] at this; exact this
              have hpub : c'.pair.pub = m.senderRatchetKey := by rw [hp]; exact (receiverChain_mem hc).2
              simp only [SState.receiverChain, SState.modifyChain] at hc ⊢
              rw [find?_modifyFirst _ _ _ (by intro a _; simp [hpub]), hc]; simp
      obtain ⟨a, b, c⟩ := ih _ (fun x hx => h1 x (by simp [hx])) hk1.1 hr1
      exact ⟨⟨h3, a⟩, b, c.trans hk1.2⟩
  obtain ⟨a, b', c⟩ := key ms s1 hsame hk.1 hret0
  exact C05_no_replay E s s1 d d' m m' x b hwf h ms hcount a hrk hctr (by rw [c, hk.2, hver, hv0]) b'

section
open Toy
set_option maxRecDepth 100000
/-- Non-vacuity of C05: Bob decrypts Alice's first message, then her second, then the first again. -/
example : decryptWithState bobEnv none (decryptMany bobEnv bobAfter [(none, msg2.message)]).2 msg1.message =
    (.err .oldCounter, (decryptMany bobEnv bobAfter [(none, msg2.message)]).2, false) :=
  C05_no_replay_same_chain bobEnv bobInit bobAfter (bobEnv.rng 0) none msg1.message msg1.message
    (opened (decryptWithState bobEnv (bobEnv.rng 0) bobInit msg1.message).1) true
    (WFChains.of_nil (by decide +kernel)) (by decide +kernel) [(none, msg2.message)] (by decide +kernel) (by decide +kernel) rfl rfl rfl
end

/-- **C05 fails after 2^32 messages on one chain**: the chain index wraps to 0 and every
counter up to 5000, used before, is accepted again (with another key). -/
theorem C05_wrap_false (C : Crypto) (c : Chain) (h : c.chainKey.index = 0xFFFFFFFF) (ctr : UInt32) (hc : ctr.toNat ≤ 5000) :
    ∃ mk c1 mk' c2, c.recv C 0xFFFFFFFF = (.ok mk, c1) ∧ c1.recv C ctr = (.ok mk', c2) ∧ mk'.index = ctr := by
  have e1 : c.recv C 0xFFFFFFFF = (.ok (c.chainKey.msgKeys C), { c with chainKey := c.chainKey.next C }) := by
    unfold Chain.recv
    rw [h, if_neg (by decide), if_neg (by decide)]
    rfl
  have h2 : ({ c with chainKey := c.chainKey.next C } : Chain).chainKey.index = 0 := by simp [next_index, h]
  cases hr : ({ c with chainKey := c.chainKey.next C } : Chain).recv C ctr with
  | mk r c2 =>
  have hr' := hr
  unfold Chain.recv at hr'
  rw [h2, if_neg (by simp), if_neg (by rw [UInt32.lt_iff_toNat_lt]; show ¬ 5000 < _; simp; omega)] at hr'
  simp only [Prod.mk.injEq] at hr'
  refine ⟨_, _, _, c2, e1, by rw [hr, ← hr'.1], ?_⟩
  rw [msgKeys_index, ChainKey.iter_index, h2]
  simp

/-! ### C07 -/

/-- **C07 (boundary).** On an existing chain, a message whose counter is not below the chain's is accepted for
key derivation (its result is that of checking the MAC and decrypting with the key that many steps
ahead) exactly when it is at most 5000 ahead; otherwise it is refused and the state is unchanged. -/
theorem C07_boundary_partial (E : Env) (d : Option Key32) (s : SState) (m : SignalMsg) (c : Chain)
    (hs : s.senderChain ≠ none) (hv : m.struct.version = s.version)
    (hc : s.receiverChain m.senderRatchetKey = some c) (hle : c.chainKey.index.toNat ≤ m.struct.counter.toNat) :
    (m.struct.counter.toNat - c.chainKey.index.toNat ≤ 5000 →
      (decryptWithState E d s m).1 = openWith E s.remoteIdentity s.localIdentity m
        ((c.chainKey.iter E.C (m.struct.counter.toNat - c.chainKey.index.toNat)).msgKeys E.C)) ∧
    (5001 ≤ m.struct.counter.toNat - c.chainKey.index.toNat →
      decryptWithState E d s m = (.err .tooFarFuture, s, false)) := by
  rw [decryptWithState_existing E d s m c hs hv hc]
  have hle' : c.chainKey.index ≤ m.struct.counter := UInt32.le_iff_toNat_le.2 hle
  have hsub : (m.struct.counter - c.chainKey.index).toNat = m.struct.counter.toNat - c.chainKey.index.toNat :=
    UInt32.toNat_sub_of_le _ _ hle'
  have h1 : ¬ m.struct.counter < c.chainKey.index := UInt32.not_lt.2 hle'
  constructor
  · intro h
    unfold Chain.recv
    rw [if_neg h1, if_neg (by rw [UInt32.lt_iff_toNat_lt, hsub]; show ¬ 5000 < _; omega)]
    simp only [hsub]
  · intro h
    unfold Chain.recv
    rw [if_neg h1, if_pos (by rw [UInt32.lt_iff_toNat_lt, hsub]; show 5000 < _; omega)]

/-- Non-vacuity of C07: the limit is met exactly on a reachable chain. -/
example : c04Chain.chainKey.index.toNat = 0 ∧ Toy.early1.struct.counter.toNat = 0 ∧
    (decryptWithState Toy.aliceEnv none Toy.aliceInit { Toy.early1 with struct := { Toy.early1.struct with counter := 5001 } })
      = (.err .tooFarFuture, Toy.aliceInit, false) :=
  ⟨by decide +kernel, by decide +kernel,
   (C07_boundary_partial Toy.aliceEnv none Toy.aliceInit { Toy.early1 with struct := { Toy.early1.struct with counter := 5001 } } c04Chain
    (by decide +kernel) (by decide +kernel) (by decide +kernel) (by decide +kernel)).2 (by decide +kernel)⟩

/-- **C07's "unchanged" clause is false for a new chain**: a message with a fresh ratchet key and a
counter above 5000 is refused, but the ratchet step (root key, sending chain, receiving chains) has
already been performed on the in-memory state. -/
theorem C07_new_chain_false (E : Env) (s : SState) (m : SignalMsg) (root : Bytes) (sc : Chain) (p r : Key32)
    (hv : m.struct.version = s.version) (hc : s.receiverChain m.senderRatchetKey = none) (hr : s.rootKey = some root)
    (hsc : s.senderChain = some sc) (hp : sc.pair.priv = some p) (hctr : 5001 ≤ m.struct.counter.toNat) :
    (decryptWithState E (some r) s m).1 = .err .tooFarFuture ∧
    (decryptWithState E (some r) s m).2.1 = ratchetStep E.C s m.senderRatchetKey root sc.chainKey.index p (clamp r) ∧
    (decryptWithState E (some r) s m).2.1 ≠ s := by
  have h1 := ratchetStep_chain E.C s m.senderRatchetKey root sc.chainKey.index p (clamp r) hc
  have h2 := (C07_boundary_partial E none (ratchetStep E.C s m.senderRatchetKey root sc.chainKey.index p (clamp r)) m _
    (by simp [ratchetStep, SState.setSenderChain]) hv h1 (by simp)).2 (by simpa using hctr)
  rw [decryptWithState_new E s m root sc p r hv hc hr hsc hp none, h2]
  refine ⟨rfl, rfl, ?_⟩
  simp only
  intro e
  rw [e, hc] at h1
  simp at h1

/-! ### C49 -/

theorem c49_aux {P Q R : Prop} (q : Q) (p : Q → P) (r : R) : P ∧ Q ∧ R := ⟨p q, q, r⟩

/-- **C49.** After a successful decryption the chain that carried the message holds only the chain key
of a later position and the keys of remembered positions other than the message's: neither the message
keys nor a chain key from which they follow.  All other chains are as before (or new and empty). -/
theorem C49_consumed_keys_gone (E : Env) (s s1 : SState) (d : Option Key32) (m : SignalMsg) (pt : Bytes) (mk : MsgKeys) (b : Bool)
    (hwf : WFChains E.C s)
    (h : decryptWithState E d s m = (.ok (pt, mk), s1, b)) :
    mk.index = m.struct.counter ∧
    (∃ (c : Chain) (ck0 : ChainKey) (w : Window), s1.receiverChain m.senderRatchetKey = some c ∧
      ck0.index = 0 ∧ c.chainKey = ck0.iter E.C w.next ∧
      c.msgKeys = w.skipped.map (fun p => (ck0.iter E.C p).msgKeys E.C) ∧
      mk = (ck0.iter E.C m.struct.counter.toNat).msgKeys E.C ∧
      m.struct.counter.toNat < w.next ∧ m.struct.counter.toNat ∉ w.skipped ∧
      ∀ k ∈ c.msgKeys, k.index ≠ m.struct.counter) ∧
    (∀ rk c, rk ≠ m.senderRatchetKey → s1.receiverChain rk = some c → s.receiverChain rk = some c) := by
  refine c49_aux ?_ ?_ ?_
  · rcases decryptWithState_cases E d s m with ⟨res, d', he, hno, -⟩ | ⟨s0, c, d', hc, -, -, hs0, he⟩
    · rw [he] at h; cases h; simp [Res.isOk] at hno
    · have hwf0 : ∃ ck0 w, Refines E.C ck0 c w ∧ w.next < 2 ^ 32 := by
        rcases hs0 with ⟨rfl, -⟩ | ⟨hn, -, root, sc, p, r, -, -, -, -, rfl⟩
        · exact hwf.chains c (receiverChain_mem hc).1
        · rcases addReceiverChain_mem (receiverChain_mem hc).1 with hm | rfl
          · exact hwf.chains c hm
          · exact ⟨_, _, refines_new _ _ _ (by simp), by simp [Window.empty]⟩
      obtain ⟨ck0, w, hw, hlt⟩ := hwf0
      have href := recv_refines hw m.struct.counter
      rw [he] at h
      cases ha : Window.accept sessionLimits w m.struct.counter.toNat with
      | none => rw [ha] at href; simp only at href; rw [href] at h; simp at h
      | some pw =>
        obtain ⟨q, w'⟩ := pw
        rw [ha] at href
        obtain ⟨c', hr, hw', hpair⟩ := href
        rw [hr] at h
        simp only [Prod.mk.injEq] at h
        have hb := m.struct.counter.toNat_lt
        have h2 := (C04_window_reading w m.struct.counter.toNat hlt hw.below hw.nodup).2 q w' ha
        have h3 := accept_next ha hlt hw.below
        have hmk : mk = (ck0.iter E.C m.struct.counter.toNat).msgKeys E.C := by
          have h1 := h.1
          rw [h2.1] at h1
          unfold openWith at h1
          cases hv : m.verifyMac E.C E.S m.struct.version s.remoteIdentity s.localIdentity
              ((ck0.iter E.C m.struct.counter.toNat).msgKeys E.C).macKey with
          | err e => simp [hv] at h1
          | panic => simp [hv] at h1
          | ok u =>
            simp only [hv, Res.bind_ok] at h1
            cases hdb : decryptBody E.C ((ck0.iter E.C m.struct.counter.toNat).msgKeys E.C) (m.struct.cipherText.getD []) with
            | err e => simp [hdb] at h1
            | panic => simp [hdb] at h1
            | ok pt' => simp [hdb] at h1; exact h1.2.symm
        refine ⟨c', ck0, w', ?_, hw'.start, hw'.key, hw'.skipped, hmk, h2.2.1, h2.2.2, ?_⟩
        · rw [← h.2.1, clearPending_receiverChain]
          have hpub : c'.pair.pub = m.senderRatchetKey := by rw [hpair]; exact (receiverChain_mem hc).2
          simp only [SState.receiverChain, SState.modifyChain] at hc ⊢
          rw [find?_modifyFirst _ _ _ (by intro a _; simp [hpub]), hc]; rfl
        · rw [hw'.skipped]
          intro k hk
          obtain ⟨p, hp, rfl⟩ := List.mem_map.1 hk
          intro hi
          have hi' := congrArg UInt32.toNat hi
          rw [msgKeys_index, Refines.index hw'.start, Window.counter,
            Nat.mod_eq_of_lt (by have := hw'.below p hp; omega)] at hi'
          exact h2.2.2 (hi' ▸ hp)
  · rintro ⟨c, ck0, w, -, h0, -, -, hmk, -⟩
    rw [hmk, msgKeys_index, ChainKey.iter_index, h0]
    simp
  · intro rk c hne hc
    exact receiverChain_other hwf d m rk (Ne.symm hne) c (by rw [h]; exact hc)

section
open Toy
set_option maxRecDepth 100000
/-- Non-vacuity of C49: Bob decrypts Alice's second message first; the key of the first is remembered, that of
the second is gone. -/
example : (decryptWithState bobEnv (bobEnv.rng 0) bobInit msg2.message).1.isOk = true ∧
    ((decryptWithState bobEnv (bobEnv.rng 0) bobInit msg2.message).2.1.receiverChain msg2.message.senderRatchetKey).map
      (·.msgKeys.map (·.index)) = some [0] := by decide +kernel
example := C49_consumed_keys_gone bobEnv bobInit _ (bobEnv.rng 0) msg2.message
    (opened (decryptWithState bobEnv (bobEnv.rng 0) bobInit msg2.message).1).1
    (opened (decryptWithState bobEnv (bobEnv.rng 0) bobInit msg2.message).1).2 true (WFChains.of_nil (by decide +kernel))
    (show decryptWithState bobEnv (bobEnv.rng 0) bobInit msg2.message = (_, (decryptWithState bobEnv (bobEnv.rng 0) bobInit msg2.message).2.1, _) by
      decide +kernel)
end

end Verif
