import Verif.Props.Hostile
/-
C69: what a prekey message proves about the prekey part it carries.
-/
set_option linter.unusedSimpArgs false
namespace Verif

/-- The session a prekey message itself sets up: Bob's state computed from the message's base key and identity key with the prekeys it names. -/
def OwnSession (E : Env) (pk spk : UInt32 → Option IdKeyPair) (m : PreKeyMsg) (s : SState) : Prop :=
  ∃ kp ot keys, spk m.struct.signedPreKeyId = some kp ∧
    ((m.struct.preKeyId = none ∧ ot = none) ∨ ∃ o kp2, m.struct.preKeyId = some o ∧ pk o.value = some kp2 ∧ ot = some kp2.priv) ∧
    calculateReceiverSession E.C ⟨E.identity, kp.priv, ot, m.baseKey, m.identityKey⟩ = .ok keys ∧
    s = respond E SState.new m kp keys

/-- **C69 (first contact).** If there is no session with the sender yet, a one-time prekey is removed only if the message inside was authenticated and decrypted by the very
session set up from that prekey and the base key of the message. -/
theorem C69_first_contact (E : Env) (st : Store) (pos : Nat) (a : Addr) (m : PreKeyMsg) (id : UInt32) (hnew : st.sessions a = none)
    (h : Effect.removePreKey id ∈ (st.decryptPreKeyTrace E pos a m).2.2) :
    ∃ s x s' d, OwnSession E st.preKeys st.signedPreKeys m s ∧ decryptWithState E (E.rng pos) s m.message = (.ok x, s', d) ∧
      (st.decryptPreKeyTrace E pos a m).1 = .ok x ∧ ∃ o, m.struct.preKeyId = some o ∧ o.value = id := by
  obtain ⟨⟨o, ho1, ho2, -⟩, x, r, hx, -⟩ := C14_removed_only_after_success E st pos (st.decryptPreKeyTrace E pos a m).2.1 a m
    (st.decryptPreKeyTrace E pos a m).1 (st.decryptPreKeyTrace E pos a m).2.2 rfl id h
  have hl : st.load a = .ok Rec.new := by simp only [Store.load, hnew]
  unfold Store.decryptPreKeyTrace at hx ⊢
  simp only [hl] at hx ⊢
  unfold decryptPreKeyRec at hx ⊢
  cases hpr : process E st.identities st.preKeys st.signedPreKeys a Rec.new m with
  | mk res y =>
    obtain ⟨r1, eff⟩ := y
    rw [hpr] at hx
    cases res with
    | err e => simp at hx
    | panic => simp at hx
    | ok pid =>
      have hv3 : processV3 E st.preKeys st.signedPreKeys Rec.new m = (.ok pid, r1) := by
        unfold process at hpr
        split at hpr
        · simp at hpr
        · split at hpr <;> simp_all
      obtain ⟨kp, ot, keys, h1, h2, h3, h4⟩ := processV3_new (not_knows_new m) hv3
      have hst : r1.heap r1.cur = respond E SState.new m kp keys := by
        rw [h4]; simp [Rec.new, Rec.set, Rec.state]
      have hpv : r1.prev = [] := by rw [h4]; rfl
      simp only at hx ⊢
      cases hd : decryptWithState E (E.rng pos) (r1.heap r1.cur) m.message with
      | mk res2 z =>
        obtain ⟨s', d⟩ := z
        cases res2 with
        | err e =>
          have : decryptWithRecord E pos r1 m.message = (.err .noValidSessions, r1.set r1.cur s', bump pos d) := by
            simp only [decryptWithRecord, hd, hpv, tryPrevious]
          rw [this] at hx; simp at hx
        | panic =>
          have : decryptWithRecord E pos r1 m.message = (.panic, r1.set r1.cur s', bump pos d) := by
            simp only [decryptWithRecord, hd]
          rw [this] at hx; simp at hx
        | ok x2 =>
          have hdr : decryptWithRecord E pos r1 m.message = (.ok x2, r1.set r1.cur s', bump pos d) := by
            simp only [decryptWithRecord, hd]
          rw [hdr] at hx ⊢
          have hxx : x2 = x := by
            cases pid with
            | none => simp at hx
            | some o2 => simp only at hx; split at hx <;> simpa using hx
          subst hxx
          exact ⟨_, x2, s', d, ⟨kp, ot, keys, h1, h3, h2, rfl⟩, by rw [← hst]; exact hd, hx, o, ho1, ho2⟩

/-- **C69, false once there is a session.**  Suppose Bob has a session `s` with the sender and `m.message` is a message `s` accepts — one the peer sent, in any wrapping.
Whoever can stop that message on its way can wrap it in a prekey part of his own: the peer's identity key, any new base key, any of Bob's prekeys.  The session set up from that
is worthless (it does not accept the message: `hbad`), but Bob returns the plaintext as if nothing had happened, removes the one-time prekey the attacker chose and stores a
session together with the worthless one. -/
theorem C69_rewrapped_false (E : Env) (st : Store) (pos : Nat) (a : Addr) (m : PreKeyMsg) (s : SState) (new : SState) (o : OptU32) (e : Err) (x : Bytes × MsgKeys)
    (s1 s' : SState) (d d' : Bool)
    (hl : st.load a = .ok (Rec.ofStates s [])) (ht : E.trusted st.identities a m.identityKey = true)
    (hk : ¬ (s.version = m.struct.version ∧ s.senderBaseKey = some m.baseKey))
    (hown : OwnSession E st.preKeys st.signedPreKeys m new) (ho : m.struct.preKeyId = some o) (he : o.isEmpty = false) (hmax : o.value ≠ mediumMaxValue)
    (hbad : decryptWithState E (E.rng pos) new m.message = (.err e, s1, d))
    (hgood : decryptWithState E (E.rng (bump pos d)) s m.message = (.ok x, s', d')) :
    ∃ r, st.decryptPreKeyTrace E pos a m =
        (.ok x, bump (bump pos d) d', [.saveIdentity a (some m.identityKey), .storeSession a r, .removePreKey o.value]) ∧
      r.state = s' ∧ s1 ∈ r.prevStates := by
  obtain ⟨kp, ot, keys, h1, h3, h2, rfl⟩ := hown
  obtain ⟨kp2, hk2, rfl⟩ : ∃ kp2, st.preKeys o.value = some kp2 ∧ ot = some kp2.priv := by
    rcases h3 with ⟨h, -⟩ | ⟨o', kp2, h, h', h''⟩
    · rw [ho] at h; cases h
    · rw [ho] at h; cases h; exact ⟨kp2, h', h''⟩
  have hnk : ¬ Knows (Rec.ofStates s []) m := by
    rintro ⟨s0, hs0, h0⟩
    rw [ofStates_state] at hs0
    simp only [Rec.prevStates, Rec.ofStates, List.length_nil, List.range_zero, List.map_nil, List.mem_singleton] at hs0
    subst hs0; exact hk h0
  have hv3 : processV3 E st.preKeys st.signedPreKeys (Rec.ofStates s []) m =
      (.ok (some o), (Rec.ofStates s []).archiveCurrentState.set 1 (respond E SState.new m kp keys)) := by
    unfold processV3
    rw [if_neg (by rw [hasSessionState_iff]; exact hnk)]
    simp only [h1, ho, hk2, h2, if_neg hmax]
    refine Prod.ext rfl ?_
    simp only [Rec.ofStates, Rec.archiveCurrentState, Rec.promote, Rec.state, respond]
    rfl
  have hpr : process E st.identities st.preKeys st.signedPreKeys a (Rec.ofStates s []) m =
      (.ok (some o), (Rec.ofStates s []).archiveCurrentState.set 1 (respond E SState.new m kp keys), [.saveIdentity a (some m.identityKey)]) := by
    unfold process
    rw [if_neg (by simp [ht]), hv3]
  generalize hr1 : (Rec.ofStates s []).archiveCurrentState.set 1 (respond E SState.new m kp keys) = r1 at hpr
  have hc1 : r1.cur = 1 := by rw [← hr1]; rfl
  have hp1 : r1.prev = [0] := by rw [← hr1]; rfl
  have hh1 : r1.heap 1 = respond E SState.new m kp keys := by rw [← hr1]; simp [Rec.set]
  have hh0 : r1.heap 0 = s := by
    rw [← hr1]
    simp [Rec.set, Rec.archiveCurrentState, Rec.promote, Rec.ofStates]
  have hdr : decryptWithRecord E pos r1 m.message =
      (.ok x, Rec.promote { ((r1.set 1 s1).set 0 s') with prev := [0] } 0, bump (bump pos d) d') := by
    unfold decryptWithRecord
    have hb := hbad
    rw [← hh1] at hb
    rw [hc1, hb]
    simp only
    rw [hp1]
    have hg : decryptWithState E (E.rng (bump pos d)) ((r1.set 1 s1).heap 0) m.message = (.ok x, s', d') := by
      simp only [Rec.set, if_neg (by decide : ¬ (0 : Nat) = 1), hh0]; exact hgood
    simp only [tryPrevious, hg]
    have hsp : ((r1.set 1 s1).set 0 s').prev = [0] := hp1
    rw [hsp]
    rfl
  refine ⟨Rec.promote { ((r1.set 1 s1).set 0 s') with prev := [0] } 0, ?_, ?_, ?_⟩
  · unfold Store.decryptPreKeyTrace
    simp only [hl]
    unfold decryptPreKeyRec
    simp only [hpr, hdr, he, Bool.false_eq_true, if_false, List.singleton_append, List.cons_append, List.nil_append]
  · simp [Rec.promote, Rec.state, Rec.set]
  · simp only [Rec.promote, Rec.prevStates, Rec.set, hc1]
    rw [if_neg (by simp [archivedStatesMaxLength])]
    simp

section
open Toy

/-- Bob after Alice's first message, with one more one-time prekey. -/
def bobMore : Store := { bob1 with preKeys := fun i => if i = 10 then some oneTime2 else none }
/-- Alice's second message wrapped anew by somebody who knows no key. -/
def rewrapped : PreKeyMsg :=
  { msg2 with baseKey := key 77, struct := { msg2.struct with baseKey := some (serPub (key 77)), preKeyId := some (OptU32.new 10) } }

set_option maxRecDepth 100000 in
/-- A concrete case: Bob takes the rewrapped message, and his one-time prekey 10 is gone. -/
theorem C69_rewrapped_concrete_false :
    (bobMore.decryptPreKey bobEnv 1 Toy.alice rewrapped).1.map (·.1) = .ok [1, 2, 3] ∧
    bobMore.preKeys 10 = some oneTime2 ∧ (bobMore.decryptPreKey bobEnv 1 Toy.alice rewrapped).2.1.preKeys 10 = none ∧
    (recOf (bobMore.decryptPreKey bobEnv 1 Toy.alice rewrapped).2.1 Toy.alice).prevStates.any (fun s => s.senderBaseKey == some (key 77)) = true := by
  decide +kernel

set_option maxRecDepth 100000 in
/-- Non-vacuity of `C69_first_contact`. -/
example : bobStore.sessions Toy.alice = none ∧
    ((bobStore.decryptPreKeyTrace bobEnv 0 Toy.alice msg1).2.2).any (fun e => match e with | .removePreKey id => id == 9 | _ => false) = true := by
  decide +kernel
end

end Verif
