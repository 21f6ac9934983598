import Verif.Proofs.Sign
import Verif.Props.KeyGen
/-
C45: signatures made by ecc/sign_curve25519.go verify.
-/
set_option linter.unusedSimpArgs false
set_option exponentiation.threshold 600
namespace Verif
open Verif.Ed Verif.Limb

/-! ### The group operations used by signing -/

/-- **C45 (multiplication of the base point).** For every scalar with the top bit clear, `GeScalarMultBase` followed by `ToBytes` gives the
standard encoding of the scalar times the base point. -/
theorem C45_base_multiple (k : Key32) (hk : leNat k.bytes < 2 ^ 255) :
    (toArr 32 (geScalarMultBase (ints k.bytes)).toBytes).bytes = encodePoint (leNat k.bytes • B) := by
  have hl : (ints k.bytes).length = 32 := by rw [ints_length, k.len]
  have ht : (ints k.bytes).getD 31 0 ≤ 127 := by
    have h := top_bit k.len
    have e : (ints k.bytes).getD 31 0 = ((k.bytes.getD 31 0).toNat : Int) := by
      have h31 : 31 < k.bytes.length := by rw [k.len]; decide
      simp [ints, List.getD_eq_getElem?_getD, h31]
    omega
  have h := geScalarMultBase_rep (ints k.bytes) hl (ints_areBytes _) ht
  rw [leVal_ints, natCast_zsmul] at h
  exact erep_toArr h

theorem mod_smul_B (n : Nat) : (n % L25519) • B = n • B := by
  conv_rhs => rw [← Nat.mod_add_div n L25519, add_nsmul, mul_comm, mul_nsmul', order_B]
  simp

theorem scReduce_arr (s : Arr 64) : leNat (toArr 32 (scReduce (ints s.bytes))).bytes = leNat s.bytes % L25519 := by
  obtain ⟨h1, h2, h3⟩ := C44_reduce (ints s.bytes) (by rw [ints_length, s.len]) (ints_areBytes _)
  have := leNat_toArr h1 h2
  rw [h3, leVal_ints] at this
  exact_mod_cast this

theorem scMulAdd_arr (a b c : Arr 32) :
    leNat (toArr 32 (scMulAdd (ints a.bytes) (ints b.bytes) (ints c.bytes))).bytes =
      (leNat a.bytes * leNat b.bytes + leNat c.bytes) % L25519 := by
  obtain ⟨h1, h2, h3⟩ := C44_mul_add (ints a.bytes) (ints b.bytes) (ints c.bytes) (by rw [ints_length, a.len])
    (by rw [ints_length, b.len]) (by rw [ints_length, c.len]) (ints_areBytes _) (ints_areBytes _) (ints_areBytes _)
  have := leNat_toArr h1 h2
  rw [h3, leVal_ints, leVal_ints, leVal_ints] at this
  exact_mod_cast this

theorem encodePoint_length (P : Pt) : (encodePoint P).length = 32 := encodeYS_length _ _
theorem leNat_encodePoint (P : Pt) : leNat (encodePoint P) = P.y.val + 2 ^ 255 * (P.x.val % 2) :=
  leNat_encodeYS _ (Nat.mod_lt _ (by decide))
theorem L_lt : L25519 < 2 ^ 253 := by decide
theorem encodeYS_eq {b : Bytes} (hl : b.length = 32) {y : F} {s : Nat} (hs : s < 2) (h : leNat b = y.val + 2 ^ 255 * s) :
    b = encodeYS y s :=
  leNat_inj (hl.trans (encodeYS_length _ _).symm) (h.trans (leNat_encodeYS y hs).symm)

/-- **C45 (what a signature is).** With `a` the private scalar, `A = aB`, the nonce `r = SHA512(FE FF…FF ‖ key ‖ message ‖ random) mod L`
and `h = SHA512(R ‖ A ‖ message) mod L`, the signature is the encoding of `R = rB` followed by `S = ha + r mod L`, and the
otherwise unused top bit of S holds the sign of A. -/
theorem C45_sign (G : GoLib) (priv : Key32) (hk : leNat priv.bytes < 2 ^ 255) (msg : Bytes) (random : Arr 64) :
    let a := leNat priv.bytes
    let r := leNat (G.sha512 (0xFE :: List.replicate 31 0xFF ++ priv.bytes ++ msg ++ random.bytes)).bytes % L25519
    let h := leNat (G.sha512 (encodePoint (r • B) ++ encodePoint (a • B) ++ msg)).bytes % L25519
    (sign G priv msg random).bytes =
      encodePoint (r • B) ++ leBytes 32 ((h * a + r) % L25519 + 2 ^ 255 * ((a • B).x.val % 2)) := by
  intro a r h
  have hA : _ = encodePoint (a • B) := C45_base_multiple priv hk
  have er : leNat (G.sha512 (diversifier ++ priv.bytes ++ msg ++ random.bytes)).bytes % L25519 = r := rfl
  have hr := scReduce_arr (G.sha512 (diversifier ++ priv.bytes ++ msg ++ random.bytes))
  have hL := L_lt
  have hR := C45_base_multiple (toArr 32 (scReduce (ints (G.sha512 (diversifier ++ priv.bytes ++ msg ++ random.bytes)).bytes)))
    (by rw [hr]; have := Nat.mod_lt (leNat (G.sha512 (diversifier ++ priv.bytes ++ msg ++ random.bytes)).bytes) (show 0 < L25519 by decide); omega)
  rw [hr, er] at hR
  have hS := scMulAdd_arr (toArr 32 (scReduce (ints (G.sha512 (encodePoint (r • B) ++ encodePoint (a • B) ++ msg)).bytes))) priv
    (toArr 32 (scReduce (ints (G.sha512 (diversifier ++ priv.bytes ++ msg ++ random.bytes)).bytes)))
  rw [hr, scReduce_arr, er] at hS
  unfold sign
  simp only
  rw [hA, hR]
  change (encodePoint (r • B) ++ _).modify (32 + 31) _ = _
  rw [modify_append_right _ _ 32 31 _ (encodePoint_length _)]
  refine congrArg (encodePoint (r • B) ++ ·) ?_
  refine leNat_inj (by rw [List.length_modify, (toArr 32 _).len, leBytes_length]) ?_
  have hSlt := Nat.mod_lt (h * a + r) (show 0 < L25519 by decide)
  rw [leNat_or_top (toArr 32 _).len _ (by rw [hS]; exact lt_of_lt_of_le hSlt (by omega)), hS, leNat_leBytes,
    top_bit (encodePoint_length _), leNat_encodePoint]
  have hy : (a • B).y.val < P25519 := ZMod.val_lt _
  have hp : P25519 < 2 ^ 255 := by decide
  have e1 : ((a • B).y.val + 2 ^ 255 * ((a • B).x.val % 2)) / 2 ^ 255 = (a • B).x.val % 2 := by omega
  have hmod : leNat (G.sha512 (encodePoint (r • B) ++ encodePoint (a • B) ++ msg)).bytes % L25519 = h := rfl
  have e5 : (leNat priv.bytes : Nat) = a := rfl
  have h256 : (256 : Nat) ^ 32 = 2 ^ 255 * 2 := by norm_num
  have hx := Nat.mod_lt (a • B).x.val (show 0 < 2 by decide)
  rw [e1, hmod, e5, h256]
  symm
  apply Nat.mod_eq_of_lt
  omega

/-- The Edwards y-coordinate computed by `verify`. -/
theorem verify_y (pub : Key32) :
    let u : F := ((leNat pub.bytes % 2 ^ 255 : Nat) : F)
    let e := feMul (feSub (feFromBytes (ints (pub.bytes.modify 31 (· &&& 0x7F)))) feOne)
      (feInvert (feAdd (feFromBytes (ints (pub.bytes.modify 31 (· &&& 0x7F)))) feOne))
    fv e = (u - 1) / (u + 1) ∧ e.within 101 := by
  intro u e
  have hlen : (pub.bytes.modify 31 (· &&& 0x7F)).length = 32 := by simp [pub.len]
  obtain ⟨-, b1, b2⟩ := C43_from_bytes (ints (pub.bytes.modify 31 (· &&& 0x7F))) (by rw [ints_length, hlen]) (ints_areBytes _)
  rw [leVal_ints, leNat_clear_top pub.len] at b2
  have hu : fv (feFromBytes (ints (pub.bytes.modify 31 (· &&& 0x7F)))) = u := by
    have hm : ((leNat pub.bytes % 2 ^ 255 : Nat) : Int) % 2 ^ 255 = ((leNat pub.bytes % 2 ^ 255 : Nat) : Int) := by
      generalize hn : leNat pub.bytes % 2 ^ 255 = n
      have : n < 2 ^ 255 := hn ▸ Nat.mod_lt _ (by decide)
      omega
    rw [hm] at b2
    rw [fv_congr b2, Int.cast_natCast]
  obtain ⟨o1, o2⟩ := fv_one
  obtain ⟨s1, s2⟩ := fv_sub b1 o2 (by decide) (by decide)
  obtain ⟨a1, a2⟩ := fv_add b1 o2 (by decide) (by decide)
  obtain ⟨i1, i2⟩ := fv_invert (within_mono a2 (show (101 + 1 : Int) ≤ 330 by decide))
  obtain ⟨m1, m2⟩ := fv_mul (within_mono s2 (show (101 + 1 : Int) ≤ 330 by decide)) (within_mono i2 (show (101 : Int) ≤ 330 by decide))
  refine ⟨?_, m2⟩
  show fv (feMul _ _) = _
  rw [m1, s1, i1, a1, hu, o1, div_eq_mul_inv]

/-- **C45 (what verification checks).** For every public key, message and 64-byte signature: with u the key's number without its top bit,
y = (u-1)/(u+1), s the top bit of the signature's last byte and S its second half without that bit, the signature is accepted exactly when
S < L and a point A with this y and sign s satisfies encode(SB - SHA512(R ‖ A ‖ msg)·A) = R. -/
theorem C45_verify (G : GoLib) (hE : G.EdLaw) (pub : Key32) (msg : Bytes) (sig : Sig64) :
    let u : F := ((leNat pub.bytes % 2 ^ 255 : Nat) : F)
    let y : F := (u - 1) / (u + 1)
    let R := sig.bytes.take 32
    let S := leNat (sig.bytes.drop 32) % 2 ^ 255
    let s := leNat (sig.bytes.drop 32) / 2 ^ 255
    (verify G pub msg sig).1 = true ↔
      S < L25519 ∧ ∃ A : Pt, A.y = y ∧ (A.x = 0 ∨ A.x.val % 2 = s) ∧
        encodePoint (S • B - (leNat (G.sha512 (R ++ encodeYS y s ++ msg)).bytes % L25519) • A) = R := by
  intro u y R S s
  obtain ⟨Ra, Sa, hs⟩ := split_sig sig
  have hR : R = Ra.bytes := by simp only [R, hs]; rw [List.take_left' Ra.len]
  have hd : sig.bytes.drop 32 = Sa.bytes := by rw [hs, List.drop_left' Ra.len]
  have hS : S = leNat Sa.bytes % 2 ^ 255 := by simp only [S, hd]
  have hss : s = leNat Sa.bytes / 2 ^ 255 := by simp only [s, hd]
  have hs2 : s < 2 := by
    rw [hss]
    have h1 := leNat_lt Sa.bytes
    rw [Sa.len] at h1
    have h2 : (256 : Nat) ^ 32 = 2 ^ 255 * 2 := by norm_num
    rw [h2] at h1
    omega
  obtain ⟨y1, y2⟩ := verify_y pub
  obtain ⟨-, t1, t2, t3⟩ := C43_to_bytes _ (within_mono y2 (show (101 : Int) ≤ 330 by decide))
  rw [← fv_val, y1] at t3
  have t4 := leNat_toArr t1 t2
  rw [t3] at t4
  have t5 : leNat (toArr 32 (feToBytes (feMul (feSub (feFromBytes (ints (pub.bytes.modify 31 (· &&& 0x7F)))) feOne)
      (feInvert (feAdd (feFromBytes (ints (pub.bytes.modify 31 (· &&& 0x7F)))) feOne)))).1).bytes = y.val := Int.ofNat.inj t4
  have hy : y.val < P25519 := ZMod.val_lt _
  have hp : P25519 < 2 ^ 255 := by decide
  let S' : Arr 32 := ⟨Sa.bytes.modify 31 (· &&& 0x7F), by simp [Sa.len]⟩
  have hS' : leNat S'.bytes = S := by rw [hS]; exact leNat_clear_top Sa.len
  have key := hE y s msg Ra S' hs2
  rw [hS'] at key
  rw [hR, ← key]
  unfold verify
  simp only
  have e1 : sig.bytes.modify 63 (· &&& 0x7F) = Ra.bytes ++ S'.bytes := by
    rw [hs]; exact modify_append_right _ _ 32 31 _ Ra.len
  have e2 : sig.bytes.getD 63 0 = Sa.bytes.getD 31 0 := by
    rw [hs]; exact getD_append_right' _ _ 32 31 Ra.len
  rw [e1, e2]
  have e3 : (toArr 32 (feToBytes (feMul (feSub (feFromBytes (ints (pub.bytes.modify 31 (· &&& 0x7F)))) feOne)
      (feInvert (feAdd (feFromBytes (ints (pub.bytes.modify 31 (· &&& 0x7F)))) feOne)))).1).bytes.modify 31
        (· ||| (Sa.bytes.getD 31 0 &&& 0x80)) = encodeYS y s :=
    encodeYS_eq (by simp [(toArr 32 _).len]) hs2 (by
      rw [leNat_or_top (toArr 32 _).len _ (by rw [t5]; omega), t5, top_bit Sa.len, hss])
  rw [e3]

/-- The signature the caller passed comes back with the sign bit cleared (callers therefore pass a copy). -/
theorem C45_verify_clears_bit (G : GoLib) (pub : Key32) (msg : Bytes) (sig : Sig64) :
    (verify G pub msg sig).2.bytes = sig.bytes.modify 63 (· &&& 0x7F) := rfl

/-! ### Completeness -/

theorem clamped_nat {k : Key32} (h : IsClamped k) : leNat k.bytes % 8 = 0 ∧ 2 ^ 254 ≤ leNat k.bytes ∧ leNat k.bytes < 2 ^ 255 := by
  obtain ⟨⟨b, hb, h8⟩, ⟨c, hc, h1, h2⟩⟩ := h
  obtain ⟨l, x, hl, e⟩ := snoc_of_length (n := 31) k.len
  have hx : x = c := by
    rw [e, List.getElem?_append_right (by omega), hl] at hc
    simpa using hc
  have hlt := leNat_lt l
  rw [hl] at hlt
  have h0 : leNat l % 8 = 0 := by
    cases l with
    | nil => simp at hl
    | cons z l =>
      rw [e] at hb
      simp at hb
      subst hb
      simp only [leNat]; omega
  rw [e, leNat_snoc, hl, hx]
  omega

theorem clampNat_fix {n : Nat} (h8 : n % 8 = 0) (h1 : 2 ^ 254 ≤ n) (h2 : n < 2 ^ 255) : clampNat n = n := by
  unfold clampNat; omega

theorem y_ne_one {P : Pt} (h : P ≠ 0) : P.y ≠ 1 := by
  intro hy
  apply h
  have hon := P.on
  rw [hy] at hon
  have hd : dE ≠ -1 := by
    intro e
    obtain ⟨i, hi⟩ := complete_dE.2.1
    exact complete_dE.2.2 ⟨i, by rw [e, ← hi]; ring⟩
  have hx : P.x ^ 2 * (dE - -1) = 0 := by linear_combination -hon
  rcases mul_eq_zero.1 hx with h0 | h0
  · exact Point.ext (pow_eq_zero_iff (by decide) |>.1 h0) hy
  · exact absurd (sub_eq_zero.1 h0) hd

theorem clamped_ne_zero {n : Nat} (h8 : n % 8 = 0) (h1 : 2 ^ 254 ≤ n) (h2 : n < 2 ^ 255) : n • B ≠ 0 := by
  rw [Ne, nsmul_B_eq_zero]
  intro hd
  have hc : Nat.Coprime 8 L25519 := by decide +kernel
  have := Nat.le_of_dvd (by omega) (hc.mul_dvd_of_dvd_of_dvd (Nat.dvd_of_mod_eq_zero h8) hd)
  have hL : 2 ^ 252 ≤ L25519 := by decide
  omega

theorem mont_inv {y : F} (hy : y ≠ 1) : ((1 + y) / (1 - y) - 1) / ((1 + y) / (1 - y) + 1) = y := by
  have h : (1 - y) ≠ 0 := sub_ne_zero.2 (Ne.symm hy)
  have h2 := two_ne
  have e1 : (1 + y) / (1 - y) - 1 = 2 * y / (1 - y) := by field_simp; ring
  have e2 : (1 + y) / (1 - y) + 1 = 2 / (1 - y) := by field_simp; ring
  rw [e1, e2]
  field_simp

/-- **C45.** For every clamped private key, every message and every random value: the signature verifies under the public key that
Curve25519 assigns to that private key. -/
theorem C45_signatures_verify (G : GoLib) (hE : G.EdLaw) (hX : G.X25519Law) (priv : Key32) (hk : IsClamped priv) (msg : Bytes)
    (random : Arr 64) : (verify G (G.baseMult priv) msg (sign G priv msg random)).1 = true := by
  obtain ⟨h8, h1, h2⟩ := clamped_nat hk
  have hs := C45_sign G priv h2 msg random
  have hA0 : leNat priv.bytes • B ≠ 0 := clamped_ne_zero h8 h1 h2
  have hpub := hX priv
  rw [clampNat_fix h8 h1 h2] at hpub
  apply (C45_verify G hE _ _ _).2
  have hp : P25519 < 2 ^ 255 := by decide
  have hu : ((leNat (G.baseMult priv).bytes % 2 ^ 255 : Nat) : F) = montU (leNat priv.bytes • B) := by
    have hv : (montU (leNat priv.bytes • B)).val < P25519 := ZMod.val_lt _
    rw [hpub, leNat_leBytes, Nat.mod_eq_of_lt (a := (montU _).val) (lt_of_lt_of_le (lt_trans hv hp) (by norm_num)),
      Nat.mod_eq_of_lt (lt_trans hv hp), ZMod.natCast_zmod_val]
  rw [hu, montU, mont_inv (y_ne_one hA0)]
  simp only at hs
  rw [hs, List.take_left' (encodePoint_length _), List.drop_left' (encodePoint_length _), leNat_leBytes]
  set a := leNat priv.bytes
  set r := leNat (G.sha512 (0xFE :: List.replicate 31 0xFF ++ priv.bytes ++ msg ++ random.bytes)).bytes % L25519
  set h := leNat (G.sha512 (encodePoint (r • B) ++ encodePoint (a • B) ++ msg)).bytes % L25519 with hh
  have hSlt := Nat.mod_lt (h * a + r) (show 0 < L25519 by decide)
  have hL := L_lt
  have hx := Nat.mod_lt (a • B).x.val (show 0 < 2 by decide)
  have h256 : (256 : Nat) ^ 32 = 2 ^ 255 * 2 := by norm_num
  rw [Nat.mod_eq_of_lt (b := 256 ^ 32) (by rw [h256]; omega),
    show ((h * a + r) % L25519 + 2 ^ 255 * ((a • B).x.val % 2)) % 2 ^ 255 = (h * a + r) % L25519 by omega,
    show ((h * a + r) % L25519 + 2 ^ 255 * ((a • B).x.val % 2)) / 2 ^ 255 = (a • B).x.val % 2 by omega]
  refine ⟨hSlt, a • B, rfl, Or.inr rfl, ?_⟩
  congr 1
  rw [show encodeYS (a • B).y ((a • B).x.val % 2) = encodePoint (a • B) from rfl, ← hh, mod_smul_B, add_nsmul, mul_nsmul']
  abel

/-- **C45 (the law the rest of the model assumes).** The primitives with the repository's `sign` and `verify` satisfy `SigLaw`. -/
theorem C45_sigLaw (G : GoLib) (hE : G.EdLaw) (hX : G.X25519Law) (C : Crypto) : (withSignatures G C).SigLaw :=
  fun a m r ha => C45_signatures_verify G hE hX a ha m r

/-- **C45 (imported keys).** The same for whatever bytes `CreateKeyPair` is given: the pair it returns signs and verifies. -/
theorem C45_created_pair (G : GoLib) (hE : G.EdLaw) (hX : G.X25519Law) (C : Crypto) (bytes msg : Bytes) (random : Arr 64) (p : Key32)
    (hp : (createKeyPair (withSignatures G C) bytes).priv = some p) :
    (verify G (createKeyPair (withSignatures G C) bytes).pub msg (sign G p msg random)).1 = true := by
  simp only [createKeyPair, Option.some.injEq] at hp
  subst hp
  exact C45_signatures_verify G hE hX _ (clamp_isClamped _) msg random

/-! ### Encodings determine points -/

theorem parity_neg {x : F} (h : x ≠ 0) : (-x).val % 2 ≠ x.val % 2 := by
  haveI : NeZero x := ⟨h⟩
  have hp : P25519 % 2 = 1 := by decide
  have hx : x.val < P25519 := ZMod.val_lt _
  rw [ZMod.val_neg_of_ne_zero]
  omega

theorem x_of_y {P Q : Pt} (h : P.y = Q.y) : P.x = Q.x ∨ P.x = -Q.x := by
  have h1 := P.on
  have h2 := Q.on
  rw [h] at h1
  have hd : (1 + dE * Q.y ^ 2) ≠ 0 := by
    intro e
    obtain ⟨i, hi⟩ := complete_dE.2.1
    have hy : Q.y ≠ 0 := by intro e0; rw [e0] at e; simp at e
    apply complete_dE.2.2
    refine ⟨i / Q.y, ?_⟩
    field_simp
    rw [hi]
    linear_combination e
  have : (P.x ^ 2 - Q.x ^ 2) * (1 + dE * Q.y ^ 2) = 0 := by linear_combination h2 - h1
  rcases mul_eq_zero.1 this with h0 | h0
  · exact sq_eq_sq_iff_eq_or_eq_neg.1 (sub_eq_zero.1 h0)
  · exact absurd h0 hd

/-- A point is determined by y and the parity of x, where x = 0 counts as both. -/
theorem point_of_y_sign {P Q : Pt} {s : Nat} (h : P.y = Q.y) (hp : P.x = 0 ∨ P.x.val % 2 = s) (hq : Q.x = 0 ∨ Q.x.val % 2 = s) : P = Q := by
  apply Point.ext _ h
  rcases x_of_y h with hx | hx
  · exact hx
  · by_cases h0 : Q.x = 0
    · rw [hx, h0, neg_zero]
    · exfalso
      have h1 : P.x ≠ 0 := by rw [hx]; exact neg_ne_zero.2 h0
      apply parity_neg h0
      rw [← hx, hp.resolve_left h1, hq.resolve_left h0]

theorem encodeYS_inj {y y' : F} {s s' : Nat} (hs : s < 2) (hs' : s' < 2) (h : encodeYS y s = encodeYS y' s') : y = y' ∧ s = s' := by
  have e := congrArg leNat h
  rw [leNat_encodeYS y hs, leNat_encodeYS y' hs'] at e
  have hy : y.val < P25519 := ZMod.val_lt _
  have hy' : y'.val < P25519 := ZMod.val_lt _
  have hp : P25519 < 2 ^ 255 := by decide
  exact ⟨ZMod.val_injective _ (by omega), by omega⟩

/-- **C45 (encodings).** Different points have different encodings. -/
theorem C45_encoding_injective {P Q : Pt} (h : encodePoint P = encodePoint Q) : P = Q := by
  obtain ⟨hy, hs⟩ := encodeYS_inj (Nat.mod_lt _ (by decide)) (Nat.mod_lt _ (by decide)) h
  exact point_of_y_sign hy (Or.inr rfl) (Or.inr hs.symm)

theorem smul_B_inj {m n : Nat} (hm : m < L25519) (hn : n < L25519) (h : m • B = n • B) : m = n := by
  have key : ∀ {m n : Nat}, m ≤ n → n < L25519 → m • B = n • B → m = n := by
    intro m n hle hn h
    obtain ⟨d, rfl⟩ := Nat.exists_eq_add_of_le hle
    rw [add_nsmul] at h
    have hz : d • B = 0 := by simpa using h.symm
    rw [nsmul_B_eq_zero] at hz
    have : d = 0 := Nat.eq_zero_of_dvd_of_lt hz (by omega)
    omega
  rcases Nat.le_total m n with hle | hle
  · exact key hle hn h
  · exact (key hle hm h.symm).symm

/-- **C45 (no second S).** Two accepted signatures of the same message under the same key with the same first half and the same sign bit are equal. -/
theorem C45_unique (G : GoLib) (hE : G.EdLaw) (pub : Key32) (msg : Bytes) (s1 s2 : Sig64) (h1 : (verify G pub msg s1).1 = true)
    (h2 : (verify G pub msg s2).1 = true) (hR : s1.bytes.take 32 = s2.bytes.take 32)
    (hs : leNat (s1.bytes.drop 32) / 2 ^ 255 = leNat (s2.bytes.drop 32) / 2 ^ 255) : s1 = s2 := by
  obtain ⟨a1, A1, y1, x1, e1⟩ := (C45_verify G hE pub msg s1).1 h1
  obtain ⟨a2, A2, y2, x2, e2⟩ := (C45_verify G hE pub msg s2).1 h2
  rw [hs] at x1
  have hA : A1 = A2 := point_of_y_sign (y1.trans y2.symm) x1 x2
  rw [hA, hs, hR] at e1
  have e3 := C45_encoding_injective (e1.trans e2.symm)
  have e4 := sub_left_inj.1 e3
  have hS := smul_B_inj a1 a2 e4
  have hd : s1.bytes.drop 32 = s2.bytes.drop 32 := leNat_inj (by simp [s1.len, s2.len]) (by omega)
  apply Arr.ext
  rw [← List.take_append_drop 32 s1.bytes, ← List.take_append_drop 32 s2.bytes, hR, hd]

/-! ### The laws can be satisfied, and unclamped keys need not work -/

open Classical in
/-- A library obeying both laws, for any hash function. -/
noncomputable def lawful (hash : Bytes → Arr 64) : GoLib where
  sha512 := hash
  baseMult k := ⟨leBytes 32 (montU (clampNat (leNat k.bytes) • B)).val, leBytes_length _ _⟩
  edVerify pk msg sig := decide (∃ (y : F) (s : Nat) (R S : Arr 32), s < 2 ∧ pk = encodeYS y s ∧ sig = R.bytes ++ S.bytes ∧
    leNat S.bytes < L25519 ∧ ∃ A : Pt, A.y = y ∧ (A.x = 0 ∨ A.x.val % 2 = s) ∧
      encodePoint (leNat S.bytes • B - (leNat (hash (R.bytes ++ pk ++ msg)).bytes % L25519) • A) = R.bytes)

theorem lawful_x (hash : Bytes → Arr 64) : (lawful hash).X25519Law := fun _ => rfl
theorem lawful_ed (hash : Bytes → Arr 64) : (lawful hash).EdLaw := by
  intro y s msg R S hs
  simp only [lawful, decide_eq_true_eq]
  constructor
  · rintro ⟨y', s', R', S', hs', h1, h2, h3⟩
    obtain ⟨rfl, rfl⟩ := encodeYS_inj hs hs' h1
    obtain ⟨e1, e2⟩ := List.append_inj h2 (by rw [R.len, R'.len])
    rw [e1, e2]
    exact h3
  · intro h
    exact ⟨y, s, R, S, hs, rfl, rfl, h⟩

/-- Concrete case: a clamped key, both laws, so the hypotheses of `C45_signatures_verify` are met. -/
example : ∃ (G : GoLib) (k : Key32), G.EdLaw ∧ G.X25519Law ∧ IsClamped k ∧
    (verify G (G.baseMult k) [1, 2, 3] (sign G k [1, 2, 3] ⟨List.replicate 64 7, rfl⟩)).1 = true :=
  let hash : Bytes → Arr 64 := fun b => sliceToArray 64 b
  let k := clamp ⟨List.replicate 32 0x55, rfl⟩
  ⟨lawful hash, k, lawful_ed hash, lawful_x hash, clamp_isClamped _,
    C45_signatures_verify _ (lawful_ed hash) (lawful_x hash) k (clamp_isClamped _) _ _⟩

/-- **C45 needs clamping.** With a private key that was not clamped the signature need not verify: X25519 clamps the scalar when it computes the
public key, signing does not. -/
theorem C45_unclamped_false : ∃ (G : GoLib) (k : Key32) (msg : Bytes) (random : Arr 64), G.EdLaw ∧ G.X25519Law ∧ ¬ IsClamped k ∧
    (verify G (G.baseMult k) msg (sign G k msg random)).1 = false := by
  let hash : Bytes → Arr 64 := fun _ => ⟨leBytes 64 1, leBytes_length _ _⟩
  let k : Key32 := ⟨List.replicate 32 0, rfl⟩
  have hk0 : leNat k.bytes = 0 := by decide
  refine ⟨lawful hash, k, [], ⟨List.replicate 64 0, rfl⟩, lawful_ed hash, lawful_x hash, ?_, ?_⟩
  · rintro ⟨-, b, hb, h1, -⟩
    have : b = 0 := by simpa [k] using hb.symm
    subst this; simp at h1
  · rw [Bool.eq_false_iff]
    intro h
    obtain ⟨-, A, hy, -, hA⟩ := (C45_verify _ (lawful_ed hash) _ _ _).1 h
    have hs := C45_sign (lawful hash) k (by rw [hk0]; decide) [] ⟨List.replicate 64 0, rfl⟩
    have h1 : leNat (leBytes 64 1) % L25519 = 1 := by rw [leNat_leBytes]; decide
    simp only [hk0] at hs
    have e0 : (0 : Nat) • B = 0 := zero_nsmul B
    have hh : ∀ b, leNat ((lawful hash).sha512 b).bytes % L25519 = 1 := fun _ => h1
    simp only [hh, e0, one_nsmul] at hs hA
    rw [hs, List.take_left' (encodePoint_length _), List.drop_left' (encodePoint_length _)] at hA
    have e1 : leNat (leBytes 32 ((1 * 0 + 1) % L25519 + 2 ^ 255 * ((0 : Pt).x.val % 2))) % 2 ^ 255 = 1 := by
      rw [zero_x, ZMod.val_zero, leNat_leBytes]; decide
    rw [e1, one_nsmul] at hA
    have hB := C45_encoding_injective hA
    have hA0 : A = 0 := by simpa using hB
    have hu : (clampNat (leNat k.bytes)) • B ≠ 0 := clamped_ne_zero (by rw [hk0]; decide) (by rw [hk0]; decide) (by rw [hk0]; decide)
    have hp : P25519 < 2 ^ 255 := by decide
    have hu2 : ((leNat ((lawful hash).baseMult k).bytes % 2 ^ 255 : Nat) : F) = montU (clampNat (leNat k.bytes) • B) := by
      have hv : (montU (clampNat (leNat k.bytes) • B)).val < P25519 := ZMod.val_lt _
      rw [lawful_x hash k, leNat_leBytes, Nat.mod_eq_of_lt (a := (montU _).val) (lt_of_lt_of_le (lt_trans hv hp) (by norm_num)),
        Nat.mod_eq_of_lt (lt_trans hv hp), ZMod.natCast_zmod_val]
    rw [hu2, montU, mont_inv (y_ne_one hu), hA0] at hy
    exact y_ne_one hu hy.symm

end Verif
