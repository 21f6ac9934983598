import Verif.Model.KeyAgree
import Verif.Spec.X25519
import Verif.Props.Bind
import Verif.Props.Install
import Verif.Props.Cbc
import Verif.Props.GroupTalkCrash
import Verif.Props.Joined
import Verif.Props.Whole
/-
C108: key agreement and signatures are those of the curve.
-/
set_option exponentiation.threshold 600
namespace Verif
open Verif.Ed Verif.Limb Talk

/-! ### u-coordinates -/

theorem uCoord_leBytes (x : F) : uCoord (leBytes 32 x.val) = x := by
  have hp : P25519 < 2 ^ 255 := by decide
  have hv : x.val < P25519 := ZMod.val_lt _
  rw [uCoord, leNat_leBytes, Nat.mod_eq_of_lt (a := x.val) (lt_of_lt_of_le (lt_trans hv hp) (by norm_num)), Nat.mod_eq_of_lt (lt_trans hv hp), ZMod.natCast_zmod_val]

theorem leBytes_val_inj {x y : F} (h : leBytes 32 x.val = leBytes 32 y.val) : x = y := by
  rw [← uCoord_leBytes x, h, uCoord_leBytes]

theorem montU_neg (P : Pt) : montU (-P) = montU P := by simp only [montU, neg_y]

theorem montU_zero : montU 0 = 0 := by simp only [montU, zero_y, sub_self, div_zero]

/-- Only the neutral point and the point of order two have u = 0. -/
theorem montU_eq_zero {P : Pt} (h : montU P = 0) : P + P = 0 := by
  by_cases h0 : P = 0
  · rw [h0, add_zero]
  have hy1 : 1 - P.y ≠ 0 := sub_ne_zero.2 (Ne.symm (y_ne_one h0))
  have hy : P.y = -1 := by
    rcases div_eq_zero_iff.1 h with h | h
    · linear_combination h
    · exact absurd h hy1
  have hon := P.on
  rw [hy] at hon
  have hd : dE ≠ -1 := by
    intro e
    obtain ⟨i, hi⟩ := complete_dE.2.1
    exact complete_dE.2.2 ⟨i, by rw [e, ← hi]; ring⟩
  have hx : P.x ^ 2 * (dE - -1) = 0 := by linear_combination -hon
  have hx0 : P.x = 0 := by
    rcases mul_eq_zero.1 hx with h0 | h0
    · exact pow_eq_zero_iff (by decide) |>.1 h0
    · exact absurd (sub_eq_zero.1 h0) hd
  have : -P = P := Point.ext (by rw [neg_x, hx0, neg_zero]) rfl
  nth_rw 1 [← this]
  exact neg_add_cancel P

theorem montU_ne_zero_of {P : Pt} (h : P + P ≠ 0) : montU P ≠ 0 := fun e => h (montU_eq_zero e)

/-- Points with the same u-coordinate are equal, opposite, or both annihilated by two. -/
theorem montU_inj {P Q : Pt} (h : montU P = montU Q) : P = Q ∨ P = -Q ∨ (P + P = 0 ∧ Q + Q = 0) := by
  by_cases hP : P = 0
  · rw [hP, montU_zero] at h
    exact .inr (.inr ⟨by rw [hP, add_zero], montU_eq_zero h.symm⟩)
  by_cases hQ : Q = 0
  · rw [hQ, montU_zero] at h
    exact .inr (.inr ⟨montU_eq_zero h, by rw [hQ, add_zero]⟩)
  have hy : P.y = Q.y := by
    rw [← mont_inv (y_ne_one hP), ← mont_inv (y_ne_one hQ)]
    simp only [montU] at h
    rw [h]
  rcases x_of_y hy with hx | hx
  · exact .inl (Point.ext hx hy)
  · exact .inr (.inl (Point.ext (by rw [hx, neg_x]) (by rw [hy, neg_y])))

theorem clampNat_eight (n : Nat) : ∃ k, clampNat n = 8 * k := ⟨n % 2 ^ 254 / 8 + 2 ^ 251, by unfold clampNat; omega⟩

theorem clampNat_smul_two {P : Pt} (n : Nat) (h : P + P = 0) : clampNat n • P = 0 := by
  obtain ⟨k, hk⟩ := clampNat_eight n
  rw [hk, show 8 * k = 2 * (4 * k) by omega, mul_nsmul, two_nsmul, h, nsmul_zero]

/-- The u-coordinate of a multiple depends on the u-coordinate of the point only. -/
theorem montU_smul_congr {P Q : Pt} (n : Nat) (h : montU P = montU Q) : montU (clampNat n • P) = montU (clampNat n • Q) := by
  rcases montU_inj h with h | h | ⟨h1, h2⟩
  · rw [h]
  · rw [h, neg_nsmul, montU_neg]
  · rw [clampNat_smul_two n h1, clampNat_smul_two n h2]

theorem clampNat_not_dvd (n : Nat) : ¬ L25519 ∣ clampNat n := by
  rw [← nsmul_B_eq_zero]
  exact clamped_ne_zero (by unfold clampNat; omega) (by unfold clampNat; omega) (by unfold clampNat; omega)

theorem two_not_dvd : ¬ L25519 ∣ 2 := fun h => absurd (Nat.le_of_dvd (by decide) h) (by decide)

/-! ### The agreement -/

/-- **C108 (the secret is the curve's).** For all private keys a and b: the secret computed from a's public key with b is the u-coordinate of the base point multiplied by both scalars. -/
theorem C108_agreement (G : GoLib) (hX : G.X25519Law) {mult : Arr 32 → Arr 32 → Arr 32} (hM : X25519Mult mult) (a b : Key32) :
    (calculateSharedSecret mult (G.baseMult a) b).bytes = leBytes 32 (montU ((clampNat (leNat a.bytes) * clampNat (leNat b.bytes)) • B)).val := by
  have := hM b (G.baseMult a) (clampNat (leNat a.bytes) • B) (by rw [hX a, uCoord_leBytes])
  rw [calculateSharedSecret, this, mul_nsmul]

/-- **C108 (both sides get the same secret).** -/
theorem C108_shared (G : GoLib) (hX : G.X25519Law) {mult : Arr 32 → Arr 32 → Arr 32} (hM : X25519Mult mult) (a b : Key32) :
    calculateSharedSecret mult (G.baseMult a) b = calculateSharedSecret mult (G.baseMult b) a :=
  Arr.ext (by rw [C108_agreement G hX hM, C108_agreement G hX hM, Nat.mul_comm])

/-- **C108 (the law the rest of the model assumes).** -/
theorem C108_dhLaw (G : GoLib) (hX : G.X25519Law) {mult : Arr 32 → Arr 32 → Arr 32} (hM : X25519Mult mult) (C : Crypto) : (withX25519 G mult C).DhLaw :=
  fun a b => C108_shared G hX hM a b

theorem C108_sigLaw (G : GoLib) (hE : G.EdLaw) (hX : G.X25519Law) (mult : Arr 32 → Arr 32 → Arr 32) (C : Crypto) : (withX25519 G mult C).SigLaw :=
  fun a m r ha => C45_signatures_verify G hE hX a ha m r

/-- **C108 (never zero).** The secret of two generated keys is never the all-zero string (the value RFC 7748 tells implementations to refuse). -/
theorem C108_never_zero (G : GoLib) (hX : G.X25519Law) {mult : Arr 32 → Arr 32 → Arr 32} (hM : X25519Mult mult) (a b : Key32) :
    (calculateSharedSecret mult (G.baseMult a) b).bytes ≠ List.replicate 32 0 := by
  rw [C108_agreement G hX hM]
  intro h
  have h0 : leBytes 32 (0 : F).val = List.replicate 32 0 := by rw [ZMod.val_zero]; decide
  rw [← h0] at h
  have := montU_eq_zero (leBytes_val_inj h)
  rw [← two_nsmul, ← mul_nsmul, nsmul_B_eq_zero] at this
  rcases prime_L25519.dvd_mul.1 this with h1 | h1
  · rcases prime_L25519.dvd_mul.1 h1 with h2 | h2
    · exact clampNat_not_dvd _ h2
    · exact clampNat_not_dvd _ h2
  · exact two_not_dvd h1

/-- **C108 (different peers, different secrets).** If one private key gives the same secret with two generated public keys, the public keys are equal. -/
theorem C108_distinct (G : GoLib) (hX : G.X25519Law) {mult : Arr 32 → Arr 32 → Arr 32} (hM : X25519Mult mult) (a b c : Key32)
    (h : calculateSharedSecret mult (G.baseMult a) c = calculateSharedSecret mult (G.baseMult b) c) : G.baseMult a = G.baseMult b := by
  have e := congrArg Arr.bytes h
  rw [C108_agreement G hX hM, C108_agreement G hX hM] at e
  have e := leBytes_val_inj e
  set x := clampNat (leNat a.bytes)
  set y := clampNat (leNat b.bytes)
  set z := clampNat (leNat c.bytes)
  have cancel : ∀ P : Pt, (∃ k : Nat, P = k • B) → z • P = 0 → P = 0 := by
    rintro P ⟨k, rfl⟩ h
    rw [← mul_nsmul, nsmul_B_eq_zero] at h
    rcases prime_L25519.dvd_mul.1 h with h | h
    · exact (nsmul_B_eq_zero k).2 h
    · exact absurd h (clampNat_not_dvd _)
  have neg : ∀ n : Nat, ∃ k : Nat, -(n • B) = k • B := by
    intro n
    refine ⟨(L25519 - 1) * n, ?_⟩
    rw [neg_eq_iff_add_eq_zero, ← add_nsmul, nsmul_B_eq_zero]
    refine ⟨n, ?_⟩
    have : 1 ≤ L25519 := by decide
    obtain ⟨m, hm⟩ := Nat.exists_eq_add_of_le this
    rw [hm, Nat.add_sub_cancel_left, Nat.add_mul, Nat.one_mul]
  have hu : montU (x • B) = montU (y • B) := by
    rcases montU_inj e with h | h | ⟨h, -⟩
    · have : z • (x • B - y • B) = 0 := by rw [nsmul_sub, ← mul_nsmul, ← mul_nsmul, h, sub_self]
      obtain ⟨k, hk⟩ := neg y
      have := cancel _ ⟨x + k, by rw [sub_eq_add_neg, hk, add_nsmul]⟩ this
      rw [sub_eq_zero.1 this]
    · have : z • (x • B + y • B) = 0 := by rw [nsmul_add, ← mul_nsmul, ← mul_nsmul, h, neg_add_cancel]
      have := cancel _ ⟨x + y, by rw [add_nsmul]⟩ this
      rw [eq_neg_of_add_eq_zero_left this, montU_neg]
    · rw [← two_nsmul, ← mul_nsmul, nsmul_B_eq_zero] at h
      rcases prime_L25519.dvd_mul.1 h with h1 | h1
      · rcases prime_L25519.dvd_mul.1 h1 with h2 | h2
        · exact absurd h2 (clampNat_not_dvd _)
        · exact absurd h2 (clampNat_not_dvd _)
      · exact absurd h1 two_not_dvd
  exact Arr.ext (by rw [hX a, hX b]; show leBytes 32 (montU (x • B)).val = _; rw [hu])

/-- **C108 (two fresh users can talk).** The statement of C102 for the repository's own signature code and key agreement: what is assumed is only what RFC 7748 says of X25519, what RFC 8032
says of Ed25519 verification, and that AES decryption undoes encryption. -/
theorem C108_fresh_users_talk (G : GoLib) (hE : G.EdLaw) (hX : G.X25519Law) {mult : Arr 32 → Arr 32 → Arr 32} (hM : X25519Mult mult) {C : Crypto} (haes : C.AesLaw) {EA EB : Env}
    (hCA : EA.C = withX25519 G mult C) (hCB : EB.C = withX25519 G mult C) (hS : Std EA.S EA.P) (hSB : EB.S = EA.S ∧ EB.P = EA.P) (htA : EA.FirstUse) (htB : EB.FirstUse)
    {startA countA startB countB : Int} {spkA spkB : UInt32} {randA randB : Arr 64} {nowA nowB : Int64} {pA pB : Nat} {IA IB : Installation}
    (hIA : install EA startA countA spkA randA nowA pA = .ok IA) (hIB : install EB startB countB spkB randB nowB pB = .ok IB)
    (n : Nat) (hrA : EA.GoodRandom pA (IA.pos + 2 + n)) (hrB : EB.GoodRandom pB (IB.pos + n))
    (hcount : countB - startB < 2 ^ 32) {pk : PreKey} (hpk : pk ∈ IB.preKeys) (hmax : pk.id.value ≠ mediumMaxValue) (device : UInt32) (addrA addrB : Addr) :
    ∃ stA' posA', IA.store.processBundle IA.env IA.pos addrB (publish IB.env device pk IB.signedPreKey) = (.ok (), stA', posA') ∧
      ∀ evs : List Talk.Event, evs.length ≤ n → evs.length < 2 ^ 32 → (∀ s t, Talk.Event.say s t ∈ evs → t.length < 2 ^ 63) → ∀ outs, Conv.start.run evs = some outs →
        All2 Matches outs (World.run (sides IA.env IB.env) (sides addrA addrB) ⟨sides ⟨stA', posA'⟩ ⟨IB.store, IB.pos⟩, []⟩ evs) :=
  C102_fresh_users_talk (C108_dhLaw G hX hM C) haes (C108_sigLaw G hE hX mult C) hCA hCB hS hSB htA htB hIA hIB n hrA hrB hcount hpk hmax device addrA addrB

/-- **C108 (groups).** The statement of C95 (and, without crashes, of C78) for the repository's own signature code: group conversations of any number of members, with crashes, over any network
schedule, from RFC 7748 and RFC 8032 and the law of AES. -/
theorem C108_groups (G : GoLib) (hE : G.EdLaw) (hX : G.X25519Law) (mult : Arr 32 → Arr 32 → Arr 32) (C : Crypto) (haes : C.AesLaw) (S : Ser SKStruct) (hSer : StdSK S) (T : Ser SKDStruct)
    (hT : StdSKD T) (w : GWorld) (hw : (∀ who n, (w.store who).load n = .ok none) ∧ w.invites = [] ∧ w.wire = [])
    (draws : Nat → GroupDraws) (hd : ∀ t, (draws t).signing ≠ none) (rand : Nat → Arr 64) (evs : List (GroupTalk.Event Addr SenderKeyName × Option Bool))
    (hlen : ∀ n text x, (GroupTalk.Event.say n text, x) ∈ evs → text.length < 2 ^ 63)
    (hnoise : ∀ who n b y, (GroupTalk.Event.noise who n b, y) ∈ evs → ∀ x ∈ (w.xrun (withX25519 G mult C) S T draws rand 0 evs).2.invites, x.1 = n → ∀ m, newSKDMFromBytes T x.2 = .ok m →
      NotSignedBy (withX25519 G mult C) S m.id m.signatureKey b)
    (outs : List GroupTalk.Outcome) (ho : GroupTalk.Room.start.runWithCrashes SenderKeyName.sender evs = some outs) :
    GOutsAre outs (w.xrun (withX25519 G mult C) S T draws rand 0 evs).1 :=
  C95_group_crashes (withX25519 G mult C) S hSer T hT haes (C108_sigLaw G hE hX mult C) w hw draws hd rand evs hlen hnoise outs ho

/-- **C108 (groups set up over sessions).** The statement of C105 from the same assumptions. -/
theorem C108_groups_over_sessions (G : GoLib) (hE : G.EdLaw) (hX : G.X25519Law) {mult : Arr 32 → Arr 32 → Arr 32} (hM : X25519Mult mult) {C : Crypto} (haes : C.AesLaw)
    (F : Framing) (S : Ser SKStruct) (hSer : StdSK S) (T : Ser SKDStruct) (hT : StdSKD T)
    {A B : Env} {addrA addrB : Addr} {stA stB stA' : Store} {posA posB posA' : Nat} {b : Bundle} {spk ot : IdKeyPair}
    (evs : List (JoinTalk.Event Addr SenderKeyName)) (h : Meeting (withX25519 G mult C) A B addrA addrB stA stB stA' posA posB posA' b spk ot evs.length) (hn : evs.length < 2 ^ 32)
    (g : GWorld) (hg : (∀ who n, (g.store who).load n = .ok none) ∧ g.invites = [] ∧ g.wire = [])
    (draws : Nat → GroupDraws) (hd : ∀ t, (draws t).signing ≠ none) (rand : Nat → Arr 64)
    (hsay : ∀ s text, JoinTalk.Event.say s text ∈ evs → (F.enc (.inl text)).length < 2 ^ 63)
    (hpost : ∀ n text, JoinTalk.Event.group (.say n text) ∈ evs → text.length < 2 ^ 63)
    (w : JWorld) (hw : w = ⟨⟨sides ⟨stA', posA'⟩ ⟨stB, posB⟩, []⟩, g⟩)
    (hinv : ∀ x ∈ (w.run F (sides A B) (sides addrA addrB) (withX25519 G mult C) S T draws rand 0 evs).2.rooms.invites, (F.enc (.inr (x.1.groupId, x.2))).length < 2 ^ 63)
    (hnoise : ∀ who n b, JoinTalk.Event.group (.noise who n b) ∈ evs → ∀ x ∈ (w.run F (sides A B) (sides addrA addrB) (withX25519 G mult C) S T draws rand 0 evs).2.rooms.invites, x.1 = n →
      ∀ m, newSKDMFromBytes T x.2 = .ok m → NotSignedBy (withX25519 G mult C) S m.id m.signatureKey b)
    (outs : List JoinTalk.Outcome) (ho : JoinTalk.Meet.start.run (sides addrA addrB) SenderKeyName.sender evs = some outs) :
    All2 JMatches outs (w.run F (sides A B) (sides addrA addrB) (withX25519 G mult C) S T draws rand 0 evs).1 :=
  C105_groups_over_sessions (C108_dhLaw G hX hM C) haes (C108_sigLaw G hE hX mult C) F S hSer T hT evs h hn g hg draws hd rand hsay hpost w hw hinv hnoise outs ho

/-- **C108 (everything at once).** The statement of C100 (crashes, other sessions, hostile packets, damaged records, all in one conversation) for the repository's own signature code and key
agreement. -/
theorem C108_everything (G : GoLib) (hX : G.X25519Law) {mult : Arr 32 → Arr 32 → Arr 32} (hM : X25519Mult mult) {C : Crypto} (haes : C.AesLaw) {A B : Env} {addrA addrB : Addr} {stA stB stA' : Store} {posA posB posA' : Nat}
    {b : Bundle} {spk ot : IdKeyPair} (evs : List WEvent) (h : Meeting (withX25519 G mult C) A B addrA addrB stA stB stA' posA posB posA' b spk ot (42 * evs.length))
    (hn : 42 * evs.length < 2 ^ 32) (ht : ∀ s t dies, WEvent.talk (.say s t) dies ∈ evs → t.length < 2 ^ 63)
    (reachA : ∀ a r, stA'.load a = .ok r → Reachable r) (reachB : ∀ a r, stB.load a = .ok r → Reachable r)
    (othersA : ∀ d, WEvent.other .alice d ∈ evs → ¬ d.what.About addrB)
    (othersB : ∀ d, WEvent.other .bob d ∈ evs →
      ¬ d.what.About addrA ∧ (∀ id, b.preKeyId = some (OptU32.new id) → ¬ d.what.NeedsPreKey id) ∧ ¬ d.what.ReplacesSigned b.signedPreKeyId)
    (pinned : (∃ b dies, WEvent.inject .bob (.preKey b) dies ∈ evs) → ∀ ids k,
      (stB.identities addrA = none ∧ ids addrA = none) ∨ ids addrA = some A.identity.pub → B.trusted ids addrA k = true → k = A.identity.pub)
    (refused : ∀ ops, WOut.injected ops ∈ World.wrun (sides A B) (sides addrA addrB) ⟨sides ⟨stA', posA'⟩ ⟨stB, posB⟩, []⟩ evs → NoSession ops)
    (outs : List Outcome)
    (ho : Conv.start.runWithCrashes (conversation evs (World.wrun (sides A B) (sides addrA addrB) ⟨sides ⟨stA', posA'⟩ ⟨stB, posB⟩, []⟩ evs)) = some outs) :
    All2 Matches outs (talkOuts (World.wrun (sides A B) (sides addrA addrB) ⟨sides ⟨stA', posA'⟩ ⟨stB, posB⟩, []⟩ evs)) :=
  C100_everything (C108_dhLaw G hX hM C) haes evs h hn ht reachA reachB othersA othersB pinned refused outs ho

/-! ### Public keys of small order -/

/-- A key of small order gives the all-zero secret whatever our private key is. -/
theorem small_order_zero {mult : Arr 32 → Arr 32 → Arr 32} (hM : X25519Mult mult) (u : Key32) (P : Pt) (hu : uCoord u.bytes = montU P) (hP : 8 • P = 0) (k : Key32) :
    (calculateSharedSecret mult u k).bytes = List.replicate 32 0 := by
  rw [calculateSharedSecret, hM k u P hu]
  obtain ⟨m, hm⟩ := clampNat_eight (leNat k.bytes)
  rw [hm, mul_nsmul, hP, nsmul_zero, montU_zero, ZMod.val_zero]
  decide

/-- The all-zero key. -/
def zeroKey : Key32 := ⟨List.replicate 32 0, rfl⟩

theorem zeroKey_u : uCoord zeroKey.bytes = montU 0 := by
  rw [montU_zero, uCoord, show leNat zeroKey.bytes = 0 by decide]; simp

/-- **C108 is false for arbitrary peers.** With the all-zero public key (or any other of small order) every private key gives the same, publicly known secret: the check RFC 7748 asks for is
not made.  -/
theorem C108_small_order_false {mult : Arr 32 → Arr 32 → Arr 32} (hM : X25519Mult mult) (k : Key32) : (calculateSharedSecret mult zeroKey k).bytes = List.replicate 32 0 :=
  small_order_zero hM zeroKey 0 zeroKey_u (nsmul_zero 8) k

/-- **C108 (a session nobody's key went into).** A prekey bundle, or a prekey message, all of whose public keys are of small order gives both calculations the same root and chain keys for every
user: neither our identity key nor our base key, signed prekey or one-time prekey has any effect on them. -/
theorem C108_no_contribution_false (G : GoLib) {mult : Arr 32 → Arr 32 → Arr 32} (hM : X25519Mult mult) (C : Crypto) :
    (∀ (me me' : IdKeyPair) (base base' : Key32), calculateSenderSession (withX25519 G mult C) ⟨me, base, zeroKey, zeroKey, some zeroKey⟩ =
        calculateSenderSession (withX25519 G mult C) ⟨me', base', zeroKey, zeroKey, some zeroKey⟩) ∧
      (∀ (me me' : IdKeyPair) (spk spk' ot ot' : Key32), calculateReceiverSession (withX25519 G mult C) ⟨me, spk, some ot, zeroKey, zeroKey⟩ =
        calculateReceiverSession (withX25519 G mult C) ⟨me', spk', some ot', zeroKey, zeroKey⟩) := by
  have h : ∀ k, ((withX25519 G mult C).dh zeroKey k).bytes = List.replicate 32 0 := C108_small_order_false hM
  constructor <;> intros <;> simp only [calculateSenderSession, calculateReceiverSession, h]

/-- **C108 (a conversation anybody can read).** There are message keys, computed from public constants alone, such that for every user: if `ProcessBundle` accepts a bundle whose identity key,
signed prekey and one-time prekey are all zero, the next message that `Encrypt` returns is decrypted by those keys. -/
theorem C108_public_session_false (G : GoLib) {mult : Arr 32 → Arr 32 → Arr 32} (hM : X25519Mult mult) (C : Crypto) (haes : C.AesLaw) :
    ∃ k : MsgKeys, ∀ (E : Env) (st st' st'' : Store) (pos pos' : Nat) (a : Addr) (b : Bundle) (pt : Bytes) (cm : CipherMsg),
      E.C = withX25519 G mult C → StdSM E.S → b.identityKey = zeroKey → b.signedPreKeyPublic = some zeroKey → b.preKeyPublic = some zeroKey → pt.length < 2 ^ 63 →
      st.processBundle E pos a b = (.ok (), st', pos') → st'.encrypt E a pt = (.ok cm, st'') → decryptWithKey E cm.inner k = .ok pt := by
  have hz : ∀ k, ((withX25519 G mult C).dh zeroKey k).bytes = List.replicate 32 0 := C108_small_order_false hM
  have hn := (C108_no_contribution_false G hM C).1
  have haes' : (withX25519 G mult C).AesLaw := haes
  revert hz hn haes'
  generalize withX25519 G mult C = D
  intro hz hn haes'
  obtain ⟨d, hd, -⟩ := calculateSenderSession_ok D ⟨⟨zeroKey, zeroKey⟩, zeroKey, zeroKey, zeroKey, some zeroKey⟩
  obtain ⟨x, hx, -⟩ := deriveSecrets_ok D (List.replicate 32 0) (some d.root) (ascii "WhisperRatchet") (n := 64) (by decide)
  refine ⟨(SessionKeys.ofSecrets x).chain.msgKeys D, ?_⟩
  intro E st st' st'' pos pos' a b pt cm hC hS h1 h2 h3 hpt hp he
  obtain ⟨r, spk, r', hc, -, hb, hl, -⟩ := Store.processBundle_ok hp
  obtain ⟨r0, s', hl', he, -⟩ := Store.encrypt_ok he
  rw [hl, Res.ok.injEq] at hl'
  subst hl'
  rw [ofStates_state] at he
  have hspk : spk = zeroKey := by
    unfold checkBundle at hc
    simp only [h2] at hc
    split at hc
    · simp at hc
    · split at hc
      · simp at hc
      · simpa using hc.symm
  subst hspk
  subst hC
  have hst : r'.state.version = currentVersion ∧ ∃ pair, r'.state.senderChain = some ⟨pair, (SessionKeys.ofSecrets x).chain, []⟩ := by
    unfold buildFromBundle at hb
    cases h4 : E.rng pos with
    | none => simp [h4, generateKeyPair] at hb
    | some r1 =>
      cases h5 : E.rng (pos + 1) with
      | none => simp [h4, h5, generateKeyPair, h1, h3, hn _ ⟨zeroKey, zeroKey⟩ _ zeroKey, hd] at hb
      | some r2 =>
        simp only [h4, h5, generateKeyPair, h1, h3, hn _ ⟨zeroKey, zeroKey⟩ _ zeroKey, hd, createChain, hz, hx, Res.map_ok, Prod.mk.injEq] at hb
        rw [← hb.2.1]
        simp [Rec.set, Rec.state, initSenderState, SState.setSenderChain, SState.addReceiverChain]
  obtain ⟨hv, pair, hsc⟩ := hst
  obtain ⟨sc, body, e1, e2, -, -, -, -, -, e3, -⟩ := encryptState_inner hS hv hpt he
  rw [hsc, Option.some.injEq] at e1
  subst e1
  unfold decryptWithKey
  rw [e3]
  obtain ⟨k1, -, k3, -⟩ := msgKeys_ok E.C (SessionKeys.ofSecrets x).chain
  obtain ⟨ct, c1, -, c3⟩ := C28_cbc_roundtrip_partial E.C haes' none _ _ pt k3 (.inr (.inr k1))
  have : ct = body := Res.ok.inj (c1.symm.trans e2)
  rw [← this]
  exact c3

/-! ### The laws can be satisfied -/

open Classical in
/-- A multiplication obeying the law. -/
noncomputable def lawfulMult (k u : Arr 32) : Arr 32 :=
  if h : ∃ P : Pt, uCoord u.bytes = montU P then ⟨leBytes 32 (montU (clampNat (leNat k.bytes) • h.choose)).val, leBytes_length _ _⟩ else zeroKey

theorem lawfulMult_law : X25519Mult lawfulMult := by
  intro k u P hu
  have h : ∃ P : Pt, uCoord u.bytes = montU P := ⟨P, hu⟩
  rw [lawfulMult, dif_pos h]
  show leBytes 32 (montU (clampNat (leNat k.bytes) • h.choose)).val = _
  rw [montU_smul_congr _ (h.choose_spec.symm.trans hu)]

/-! ### Two users of the lawful library -/

theorem leBytes_get : ∀ (n v i : Nat), i < n → (leBytes n v)[i]? = some (UInt8.ofNat (v / 256 ^ i % 256))
  | 0, _, _, h => absurd h (Nat.not_lt_zero _)
  | n + 1, v, 0, _ => by simp [leBytes]
  | n + 1, v, i + 1, h => by
    rw [leBytes, List.getElem?_cons_succ, leBytes_get n _ i (by omega), Nat.div_div_eq_div_mul, Nat.pow_succ']

/-- The `i`-th of a sequence of private keys. -/
def seedKey (i : Nat) : Key32 := ⟨leBytes 32 (2 ^ 254 + 8 * i), leBytes_length _ _⟩

theorem seedKey_nat {i : Nat} (h : i < 2 ^ 240) : leNat (seedKey i).bytes = 2 ^ 254 + 8 * i := by
  rw [seedKey, leNat_leBytes]
  exact Nat.mod_eq_of_lt (by norm_num at h ⊢; omega)

theorem seedKey_clamped {i : Nat} (h : i < 2 ^ 240) : IsClamped (seedKey i) := by
  refine ⟨⟨_, leBytes_get 32 _ 0 (by decide), ?_⟩, ⟨_, leBytes_get 32 _ 31 (by decide), ?_⟩⟩
  · rw [UInt8.toNat_ofNat', pow_zero, Nat.div_one]
    omega
  · rw [UInt8.toNat_ofNat']
    norm_num at h ⊢
    omega

theorem clamp_seedKey {i : Nat} (h : i < 2 ^ 240) : clamp (seedKey i) = seedKey i := by
  have := C36_create_clamped Toy.C (seedKey i) (seedKey_clamped h)
  simp only [createKeyPair] at this
  have h2 : sliceToArray 32 (seedKey i).bytes = seedKey i := by simp
  rw [h2] at this
  injection this with _ h3
  exact Option.some.inj h3

theorem montU_multiples {a b : Nat} (hab : a < b) (hs : b - a < L25519) (hlo : 7 * L25519 < a + b) (hhi : a + b < 8 * L25519) (ha : ¬ L25519 ∣ a) : montU (a • B) ≠ montU (b • B) := by
  intro e
  rcases montU_inj e with h | h | ⟨h, -⟩
  · obtain ⟨d, rfl⟩ := Nat.exists_eq_add_of_le (Nat.le_of_lt hab)
    rw [add_nsmul] at h
    have hd : d • B = 0 := add_eq_left.1 h.symm
    rw [nsmul_B_eq_zero] at hd
    have := Nat.le_of_dvd (by omega) hd
    omega
  · have : (a + b) • B = 0 := by rw [add_nsmul, h, neg_add_cancel]
    rw [nsmul_B_eq_zero] at this
    obtain ⟨k, hk⟩ := this
    rw [hk, Nat.mul_comm 7] at hlo
    rw [hk, Nat.mul_comm 8] at hhi
    have h7 : 7 < k := Nat.lt_of_mul_lt_mul_left hlo
    have h8 : k < 8 := Nat.lt_of_mul_lt_mul_left hhi
    omega
  · rw [← two_nsmul, ← mul_nsmul, nsmul_B_eq_zero] at h
    rcases prime_L25519.dvd_mul.1 h with h1 | h1
    · exact ha h1
    · exact two_not_dvd h1

theorem seed_bounds {i j : Nat} (hi : i < 2 ^ 64) (hj : j < 2 ^ 64) (hne : i < j) :
    (2 ^ 254 + 8 * j) - (2 ^ 254 + 8 * i) < L25519 ∧ 7 * L25519 < (2 ^ 254 + 8 * i) + (2 ^ 254 + 8 * j) ∧ (2 ^ 254 + 8 * i) + (2 ^ 254 + 8 * j) < 8 * L25519 := by
  have h1 : 2 ^ 80 < L25519 := by decide
  have h2 : 7 * L25519 < 2 ^ 255 := by decide
  have h3 : 2 ^ 255 + 2 ^ 80 < 8 * L25519 := by decide
  generalize L25519 = L at *
  omega

/-- Different private keys of the sequence have different public keys. -/
theorem seedKey_distinct (G : GoLib) (hX : G.X25519Law) {i j : Nat} (hi : i < 2 ^ 64) (hj : j < 2 ^ 64) (hne : i < j) : G.baseMult (seedKey i) ≠ G.baseMult (seedKey j) := by
  intro h
  have hi' : i < 2 ^ 240 := lt_trans hi (by norm_num)
  have hj' : j < 2 ^ 240 := lt_trans hj (by norm_num)
  have e := congrArg Arr.bytes h
  rw [hX, hX] at e
  have e := leBytes_val_inj e
  have c : ∀ {i}, i < 2 ^ 240 → clampNat (leNat (seedKey i).bytes) = 2 ^ 254 + 8 * i := by
    intro i h
    obtain ⟨h8, h1, h2⟩ := clamped_nat (seedKey_clamped h)
    rw [clampNat_fix h8 h1 h2, seedKey_nat h]
  obtain ⟨b1, b2, b3⟩ := seed_bounds hi hj hne
  rw [← c hi', ← c hj'] at b1 b2 b3
  refine montU_multiples ?_ b1 b2 b3 (clampNat_not_dvd _) e
  rw [c hi', c hj']
  omega

/-- The primitives: X25519 and Ed25519 as the RFCs have them, the toy hash and block cipher. -/
noncomputable def rfcCrypto : Crypto := withX25519 (lawful fun b => sliceToArray 64 b) lawfulMult Toy.C

/-- A user of them, whose random source is the sequence from `seed` on. -/
noncomputable def rfcEnv (seed : Nat) : Env := { Toy.env 0 0 with C := rfcCrypto, rng := fun n => some (seedKey (seed + n)) }

theorem rfcEnv_random (seed hi : Nat) (h : seed + hi < 2 ^ 64) (lo : Nat) : (rfcEnv seed).GoodRandom lo hi := by
  refine ⟨fun i _ _ e => by simp [rfcEnv] at e, fun i j _ h2 h3 e => ?_⟩
  have hc : ∀ k, k < hi → (rfcEnv seed).drawn k = some ((lawful fun b => sliceToArray 64 b).baseMult (seedKey (seed + k))) := by
    intro k hk
    show some ((lawful fun b => sliceToArray 64 b).baseMult (clamp (seedKey (seed + k)))) = _
    rw [clamp_seedKey (lt_trans (b := 2 ^ 64) (by omega) (by norm_num))]
  rw [hc i (by omega), hc j h3, Option.some.injEq] at e
  exact seedKey_distinct _ (lawful_x _) (by omega) (by omega) (by omega) e

/-- Non-vacuity of `C108_fresh_users_talk`: two users of a library obeying the RFCs install it with three one-time prekeys each, the first publishes its first one-time prekey, and any
conversation of less than 2^32 events goes as specified. -/
theorem rfc_users_talk (addrA addrB : Addr) : ∃ (IA IB : Installation) (pk : PreKey) (stA' : Store) (posA' : Nat),
    install (rfcEnv 0) 1 3 7 ⟨List.replicate 64 1, rfl⟩ 1000 0 = .ok IA ∧ install (rfcEnv (2 ^ 40)) 1 3 7 ⟨List.replicate 64 2, rfl⟩ 2000 0 = .ok IB ∧ pk ∈ IB.preKeys ∧
      IA.store.processBundle IA.env IA.pos addrB (publish IB.env 2 pk IB.signedPreKey) = (.ok (), stA', posA') ∧
      ∀ evs : List Talk.Event, evs.length < 2 ^ 32 → (∀ s t, Talk.Event.say s t ∈ evs → t.length < 2 ^ 63) → ∀ outs, Conv.start.run evs = some outs →
        All2 Matches outs (World.run (sides IA.env IB.env) (sides addrA addrB) ⟨sides ⟨stA', posA'⟩ ⟨IB.store, IB.pos⟩, []⟩ evs) := by
  obtain ⟨IA, hA, pA⟩ := C102_install_succeeds (rfcEnv 0) 1 3 7 ⟨List.replicate 64 1, rfl⟩ 1000 0 (fun i _ _ h => by simp [rfcEnv] at h)
  obtain ⟨IB, hB, pB⟩ := C102_install_succeeds (rfcEnv (2 ^ 40)) 1 3 7 ⟨List.replicate 64 2, rfl⟩ 2000 0 (fun i _ _ h => by simp [rfcEnv] at h)
  have SB := C102_installation hB
  have pA : IA.pos = 5 := pA
  have pB : IB.pos = 5 := pB
  cases hl : IB.preKeys with
  | nil =>
    have := SB.number
    rw [hl] at this
    simp at this
  | cons pk l =>
    have hid : pk.id.value ≠ mediumMaxValue := by
      rw [SB.ids 0 pk (by rw [hl]; rfl)]
      decide
    obtain ⟨st, p, h1, h2⟩ := C108_fresh_users_talk (lawful fun b => sliceToArray 64 b) (lawful_ed _) (lawful_x _) lawfulMult_law (C := Toy.C) Toy.aesLaw (EA := rfcEnv 0) (EB := rfcEnv (2 ^ 40)) rfl rfl
      (.inl ⟨rfl, rfl⟩) ⟨rfl, rfl⟩ (toy_firstUse 0 0) (toy_firstUse 0 0) hA hB (2 ^ 32) (rfcEnv_random _ _ (by omega) _) (rfcEnv_random _ _ (by omega) _) (by decide) (pk := pk)
      (by rw [hl]; exact List.mem_cons_self) hid 2 addrA addrB
    exact ⟨IA, IB, pk, st, p, hA, hB, by rw [hl]; exact List.mem_cons_self, h1, fun evs hn ht outs ho => h2 evs (by omega) hn ht outs ho⟩

theorem withX25519_verify (G : GoLib) (mult : Arr 32 → Arr 32 → Arr 32) (C : Crypto) (p : Key32) (m : Bytes) (s : Sig64) :
    (withX25519 G mult C).verify p m s = (verify G p m s).1 := rfl

theorem weak_bundle_signature (G : GoLib) (hE : G.EdLaw) (heven : ∀ b, leNat (G.sha512 b).bytes % L25519 % 2 = 0) (msg : Bytes) : ∃ sig : Sig64, (verify G zeroKey msg sig).1 = true := by
  obtain ⟨S, hS⟩ : ∃ S, S < L25519 := ⟨5, by decide⟩
  exact ⟨_, C103_weak_key_false G hE msg S hS (heven _)⟩

/-- A hash whose digests are even. -/
def evenHash (_ : Bytes) : Arr 64 := ⟨List.replicate 64 0, rfl⟩

theorem evenHash_even (b : Bytes) : leNat ((lawful evenHash).sha512 b).bytes % L25519 % 2 = 0 := by
  show leNat (List.replicate 64 0) % L25519 % 2 = 0
  decide

/-- Non-vacuity of `C108_public_session_false`: with a hash whose digests are even, an all-zero bundle with a signature anyone can make is accepted. -/
example (a : Addr) (st : Store) (h0 : st.sessions a = none) (hi : st.identities a = none) : ∃ (E : Env) (b : Bundle) (st' : Store),
    E.C = withX25519 (lawful evenHash) lawfulMult Toy.C ∧ StdSM E.S ∧ b.identityKey = zeroKey ∧ b.signedPreKeyPublic = some zeroKey ∧
      b.preKeyPublic = some zeroKey ∧ st.processBundle E 0 a b = (.ok (), st', 2) := by
  obtain ⟨sig, hv⟩ := weak_bundle_signature (lawful evenHash) (lawful_ed _) evenHash_even (serPub zeroKey)
  obtain ⟨st', h⟩ := processBundle_succeeds (E := { rfcEnv 0 with C := withX25519 (lawful evenHash) lawfulMult Toy.C }) (st := st) (pos := 0) (a := a)
    (b := ⟨1, 1, some (OptU32.new 1), some zeroKey, 1, some zeroKey, sig, zeroKey⟩) (spk := zeroKey) h0 (toy_firstUse 0 0 _ _ _ (.inl hi)) rfl
    (by show (withX25519 (lawful evenHash) lawfulMult Toy.C).verify zeroKey (serPub zeroKey) sig = true; rw [withX25519_verify]; exact hv) (by simp [rfcEnv]) (by simp [rfcEnv])
  exact ⟨_, _, st', rfl, .inl rfl, rfl, rfl, rfl, h⟩

end Verif
