import Verif.Props.Sign
/-
C103: what a signature is bound to.
-/
set_option exponentiation.threshold 600
namespace Verif
open Verif.Ed Verif.Limb

/-- Two different byte strings whose SHA-512 digests are the same number modulo the group order. -/
def GoLib.Collides (G : GoLib) : Prop :=
  ∃ b b' : Bytes, b ≠ b' ∧ leNat (G.sha512 b).bytes % L25519 = leNat (G.sha512 b').bytes % L25519

/-- The point whose multiple of the base point is the public key, in the form verification uses. -/
theorem generated_y (G : GoLib) (hX : G.X25519Law) (priv : Key32) (hk : IsClamped priv) :
    let u : F := ((leNat (G.baseMult priv).bytes % 2 ^ 255 : Nat) : F)
    (u - 1) / (u + 1) = (leNat priv.bytes • B).y := by
  obtain ⟨h8, h1, h2⟩ := clamped_nat hk
  have hA0 : leNat priv.bytes • B ≠ 0 := clamped_ne_zero h8 h1 h2
  have hpub := hX priv
  rw [clampNat_fix h8 h1 h2] at hpub
  have hp : P25519 < 2 ^ 255 := by decide
  have hu : ((leNat (G.baseMult priv).bytes % 2 ^ 255 : Nat) : F) = montU (leNat priv.bytes • B) := by
    have hv : (montU (leNat priv.bytes • B)).val < P25519 := ZMod.val_lt _
    rw [hpub, leNat_leBytes, Nat.mod_eq_of_lt (a := (montU _).val) (lt_of_lt_of_le (lt_trans hv hp) (by norm_num)),
      Nat.mod_eq_of_lt (lt_trans hv hp), ZMod.natCast_zmod_val]
  intro u
  simp only [u]
  rw [hu, montU, mont_inv (y_ne_one hA0)]

/-- A nonzero multiple of the base point has the order of the base point. -/
theorem smul_inj_of_multiple {A : Pt} {a m n : Nat} (hA : A = a • B) (hA0 : A ≠ 0) (hm : m < L25519) (hn : n < L25519) (h : m • A = n • A) : m = n := by
  have key : ∀ {m n : Nat}, m ≤ n → n < L25519 → m • A = n • A → m = n := by
    intro m n hle hn h
    obtain ⟨d, rfl⟩ := Nat.exists_eq_add_of_le hle
    rw [add_nsmul] at h
    have hz : d • A = 0 := by simpa using h.symm
    rw [hA, ← mul_nsmul, nsmul_B_eq_zero] at hz
    rcases prime_L25519.dvd_mul.1 hz with h1 | h1
    · exact absurd (by rw [hA]; exact (nsmul_B_eq_zero a).2 h1) hA0
    · have : d = 0 := Nat.eq_zero_of_dvd_of_lt h1 (by omega)
      omega
  rcases Nat.le_total m n with hle | hle
  · exact key hle hn h
  · exact (key hle hm h.symm).symm

/-- **C103 (one signature, one message).** If the same 64 bytes are accepted as a signature of two different messages under a public key that the library generated, two different
inputs of SHA-512 have digests that agree modulo the group order. -/
theorem C103_one_message (G : GoLib) (hE : G.EdLaw) (hX : G.X25519Law) (priv : Key32) (hk : IsClamped priv) (sig : Sig64) (m1 m2 : Bytes) (hne : m1 ≠ m2)
    (h1 : (verify G (G.baseMult priv) m1 sig).1 = true) (h2 : (verify G (G.baseMult priv) m2 sig).1 = true) : G.Collides := by
  obtain ⟨h8, hlo, hhi⟩ := clamped_nat hk
  have hA0 : leNat priv.bytes • B ≠ 0 := clamped_ne_zero h8 hlo hhi
  have hy := generated_y G hX priv hk
  obtain ⟨a1, A1, y1, x1, e1⟩ := (C45_verify G hE _ m1 sig).1 h1
  obtain ⟨a2, A2, y2, x2, e2⟩ := (C45_verify G hE _ m2 sig).1 h2
  have hA : A1 = A2 := point_of_y_sign (y1.trans y2.symm) x1 x2
  subst hA
  have e3 := sub_right_inj.1 (C45_encoding_injective (e1.trans e2.symm))
  have hmul : ∃ a : Nat, A1 = a • B ∧ A1 ≠ 0 := by
    have hyy : A1.y = (leNat priv.bytes • B).y := y1.trans hy
    rcases x_of_y hyy with hx | hx
    · have : A1 = leNat priv.bytes • B := Point.ext hx hyy
      exact ⟨_, this, this ▸ hA0⟩
    · have h3 : A1 = -(leNat priv.bytes • B) := Point.ext hx hyy
      refine ⟨(L25519 - 1) * leNat priv.bytes, ?_, by rw [h3]; exact neg_ne_zero.2 hA0⟩
      have : (L25519 - 1) • (leNat priv.bytes • B) + leNat priv.bytes • B = 0 := by
        rw [← succ_nsmul, show L25519 - 1 + 1 = L25519 by decide, ← mul_nsmul, mul_nsmul', order_B]
        simp
      rw [h3, mul_nsmul']
      exact neg_eq_of_add_eq_zero_left this
  obtain ⟨a, ha, hne0⟩ := hmul
  refine ⟨_, _, ?_, smul_inj_of_multiple ha hne0 (Nat.mod_lt _ (by decide)) (Nat.mod_lt _ (by decide)) e3⟩
  intro h
  exact hne (List.append_cancel_left h)

/-- **C103 (no nonce for two messages).** If two signatures made with the same private key have the same first half, they are of the same message with the same random bytes, or two
different inputs of SHA-512 have digests that agree modulo the group order.  In particular (equal random bytes, for instance zeros after a failed read) signatures of two different
messages never share a nonce otherwise, whatever the random source does. -/
theorem C103_nonce (G : GoLib) (priv : Key32) (hk : leNat priv.bytes < 2 ^ 255) (m1 m2 : Bytes) (r1 r2 : Arr 64)
    (h : (sign G priv m1 r1).bytes.take 32 = (sign G priv m2 r2).bytes.take 32) : (m1 = m2 ∧ r1 = r2) ∨ G.Collides := by
  have s1 := C45_sign G priv hk m1 r1
  have s2 := C45_sign G priv hk m2 r2
  simp only at s1 s2
  rw [s1, s2, List.take_left' (encodePoint_length _), List.take_left' (encodePoint_length _)] at h
  have h3 := smul_B_inj (Nat.mod_lt _ (by decide)) (Nat.mod_lt _ (by decide)) (C45_encoding_injective h)
  by_cases heq : m1 = m2 ∧ r1 = r2
  · exact .inl heq
  · refine .inr ⟨_, _, ?_, h3⟩
    intro hb
    apply heq
    rw [List.append_assoc, List.append_assoc _ m2] at hb
    have hb := List.append_cancel_left hb
    obtain ⟨e1, e2⟩ := List.append_inj' hb (by rw [r1.len, r2.len])
    exact ⟨e1, Arr.ext e2⟩

/-- The random bytes matter for the signature only through the digest: the same digest, the same signature. Together with `C103_nonce`: equal first halves (without a collision) are equal
signatures. -/
theorem C103_deterministic (G : GoLib) (priv : Key32) (hk : leNat priv.bytes < 2 ^ 255) (m1 m2 : Bytes) (r1 r2 : Arr 64)
    (h : (sign G priv m1 r1).bytes.take 32 = (sign G priv m2 r2).bytes.take 32) (hne : sign G priv m1 r1 ≠ sign G priv m2 r2) : G.Collides := by
  rcases C103_nonce G priv hk m1 m2 r1 r2 h with ⟨rfl, rfl⟩ | h
  · exact absurd rfl hne
  · exact h

theorem flip_clear (x : UInt8) : (x ^^^ 0x80) &&& 0x7F = x &&& 0x7F := by
  revert x; exact forall_u8 (by decide +kernel)

/-- **C103 is not about keys: a signature is accepted under several public keys.** Setting or clearing the top bit of a public key gives different bytes (a different identity for the
trust decision and the fingerprint) under which exactly the same signatures are accepted. -/
theorem C103_key_alias_false (G : GoLib) (pub : Key32) : ∃ pub' : Key32, pub' ≠ pub ∧ ∀ msg sig, verify G pub' msg sig = verify G pub msg sig := by
  refine ⟨⟨pub.bytes.modify 31 (· ^^^ 0x80), by simp [pub.len]⟩, ?_, ?_⟩
  · intro h
    have h1 := congrArg (fun k : Key32 => k.bytes[31]?) h
    have h31 : 31 < pub.bytes.length := by rw [pub.len]; decide
    simp only [List.getElem?_modify, List.getElem?_eq_getElem h31, if_true, Option.map_eq_map, Option.map_some, Option.some.injEq] at h1
    revert h1
    generalize pub.bytes[31] = x
    intro h1
    have : ∀ x : UInt8, x ^^^ 0x80 ≠ x := by
      intro x hx
      have := congrArg (x ^^^ ·) hx
      simp [← UInt8.xor_assoc] at this
    exact this x h1
  · intro msg sig
    have : (pub.bytes.modify 31 (· ^^^ 0x80)).modify 31 (· &&& 0x7F) = pub.bytes.modify 31 (· &&& 0x7F) := by
      rw [List.modify_modify_eq]
      congr 1
      funext x
      show (x ^^^ 0x80) &&& 0x7F = x &&& 0x7F
      exact flip_clear x
    unfold verify
    simp only [this]

/-- The point of order two. -/
def twoTorsion : Pt := ⟨0, -1, by ring⟩

theorem two_twoTorsion : 2 • twoTorsion = 0 := by
  rw [two_nsmul]
  have : -twoTorsion = twoTorsion := Point.ext (by rw [neg_x]; exact neg_zero) (neg_y _)
  conv_lhs => arg 1; rw [← this]
  exact neg_add_cancel _

/-- **C103 does not extend to keys that nobody generated.** `VerifySignature` accepts the all-zero public key (a point of order two): for every message and every number S below the group
order, the encoding of SB followed by S, which anyone can compute, is accepted whenever the digest is even; so one signature is accepted for about half of all messages. -/
theorem C103_weak_key_false (G : GoLib) (hE : G.EdLaw) (msg : Bytes) (S : Nat) (hS : S < L25519)
    (heven : leNat (G.sha512 (encodePoint (S • B) ++ encodeYS (-1) 0 ++ msg)).bytes % L25519 % 2 = 0) :
    (verify G ⟨List.replicate 32 0, rfl⟩ msg ⟨encodePoint (S • B) ++ leBytes 32 S, by simp [encodePoint_length, leBytes_length]⟩).1 = true := by
  apply (C45_verify G hE _ _ _).2
  have hL := L_lt
  have h0 : leNat (List.replicate 32 0) = 0 := by decide
  simp only [h0]
  rw [List.take_left' (encodePoint_length _), List.drop_left' (encodePoint_length _), leNat_leBytes,
    Nat.mod_eq_of_lt (b := 256 ^ 32) (lt_trans (lt_trans hS hL) (by norm_num)), Nat.mod_eq_of_lt (b := 2 ^ 255) (lt_trans (lt_trans hS hL) (by norm_num)),
    Nat.div_eq_of_lt (lt_trans (lt_trans hS hL) (by norm_num))]
  have hy : (((0 % 2 ^ 255 : Nat) : F) - 1) / (((0 % 2 ^ 255 : Nat) : F) + 1) = -1 := by simp
  rw [hy]
  refine ⟨hS, twoTorsion, rfl, .inl rfl, ?_⟩
  obtain ⟨q, hq⟩ := Nat.dvd_of_mod_eq_zero heven
  rw [hq, mul_nsmul, two_twoTorsion]
  simp

/-- Non-vacuity of `C103_weak_key_false`, and the reason `C103_one_message` needs a generated key: with a hash whose digests differ, one signature for two messages. -/
example : ∃ G : GoLib, G.EdLaw ∧ G.X25519Law ∧ ∃ sig, (verify G ⟨List.replicate 32 0, rfl⟩ [1] sig).1 = true ∧ (verify G ⟨List.replicate 32 0, rfl⟩ [2] sig).1 = true := by
  let hash : Bytes → Arr 64 := fun _ => ⟨List.replicate 64 0, rfl⟩
  have h : ∀ b, leNat ((lawful hash).sha512 b).bytes % L25519 % 2 = 0 := by intro b; show leNat (List.replicate 64 0) % L25519 % 2 = 0; decide
  exact ⟨lawful hash, lawful_ed hash, lawful_x hash, _, C103_weak_key_false _ (lawful_ed hash) [1] 5 (by decide) (h _), C103_weak_key_false _ (lawful_ed hash) [2] 5 (by decide) (h _)⟩

/-- Non-vacuity of `C103_one_message`: a hash with a collision, a generated key, and one signature accepted for two messages. -/
example : ∃ (G : GoLib) (k : Key32) (sig : Sig64), G.EdLaw ∧ G.X25519Law ∧ IsClamped k ∧ (verify G (G.baseMult k) [1] sig).1 = true ∧ (verify G (G.baseMult k) [2] sig).1 = true := by
  let hash : Bytes → Arr 64 := fun _ => ⟨List.replicate 64 1, rfl⟩
  let k := clamp ⟨List.replicate 32 0x55, rfl⟩
  have e : sign (lawful hash) k [1] ⟨List.replicate 64 7, rfl⟩ = sign (lawful hash) k [2] ⟨List.replicate 64 7, rfl⟩ := rfl
  refine ⟨lawful hash, k, _, lawful_ed hash, lawful_x hash, clamp_isClamped _, C45_signatures_verify _ (lawful_ed hash) (lawful_x hash) k (clamp_isClamped _) [1] ⟨List.replicate 64 7, rfl⟩, ?_⟩
  rw [e]
  exact C45_signatures_verify _ (lawful_ed hash) (lawful_x hash) k (clamp_isClamped _) _ _

end Verif
