import Verif.Props.Sign
import Verif.Model.Point
/-
Decoding of points.
-/
set_option linter.unusedSimpArgs false
set_option exponentiation.threshold 600
namespace Verif
open Verif.Ed Verif.Limb

theorem fv_pow22523 {z : Fe} (hz : z.within 330) :
    fv (fePow22523 z) = fv z ^ ((P25519 - 5) / 8) ∧ (fePow22523 z).within 101 := by
  obtain ⟨h1, h2⟩ := C43_pow22523 z hz
  exact ⟨by rw [fv_congr h2, Int.cast_pow]; rfl, h1⟩

theorem fv_eq_zero {f : Fe} : fv f = 0 ↔ f.val % P25519 = 0 := by
  constructor
  · intro h
    have := fv_val f
    rw [h, ZMod.val_zero] at this
    exact_mod_cast this.symm
  · intro h
    have := fv_congr (f := f) (n := 0) (by rw [h]; rfl)
    simpa using this

theorem isNonZero_iff {f : Fe} (hf : f.within 330) : feIsNonZero f = 1 ↔ fv f ≠ 0 := by
  rw [C43_is_nonzero f hf, Ne, fv_eq_zero]
  split <;> simp_all

theorem fv_toBytes2 {f : Fe} (hf : f.within 330) : fv (feToBytes f).2 = fv f ∧ (feToBytes f).2.within 200 := by
  obtain ⟨h1, h2⟩ := C43_to_bytes_keeps_value f hf
  exact ⟨fv_congr h1, h2⟩

theorem feD_within : feD.within 101 := by apply fin10 <;> decide
theorem feSqrtM1_within : feSqrtM1.within 101 := by apply fin10 <;> decide
theorem feD2_within : feD2.within 101 := by apply fin10 <;> decide

theorem fv_feD : fv feD = dE := by
  rw [dE_eq, fv_congr (n := (dN : Int)) (by decide +kernel), Int.cast_natCast]
theorem fv_feD2 : fv feD2 = 2 * dE := by
  rw [dE_eq, fv_congr (n := ((2 * dN : Nat) : Int)) (by decide +kernel), Int.cast_natCast]
  push_cast; rfl
theorem fv_sqrtM1 : fv feSqrtM1 ^ 2 = -1 := by
  have e : (((feSqrtM1.val ^ 2 + 1 : Int)) : F) = ((0 : Int) : F) :=
    (ZMod.intCast_eq_intCast_iff' _ _ _).2 (by decide +kernel)
  push_cast at e
  unfold fv
  linear_combination e

/-! ### Square roots -/

/-- The candidate root: `u v³ (u v⁷)^((p-5)/8)`. -/
theorem root_candidate (u v : F) (x : F) (hx : x = (u * v ^ 7) ^ ((P25519 - 5) / 8) * v ^ 3 * u) :
    v * x ^ 2 = u * (u * v ^ 7) ^ (P25519 / 4) := by
  have e : P25519 / 4 = (P25519 - 5) / 8 * 2 + 1 := by decide
  rw [e, hx]
  generalize (P25519 - 5) / 8 = n
  rw [pow_succ (u * v ^ 7) (n * 2), pow_mul]
  ring

theorem root_spec (u v : F) (x : F) (hx : x = (u * v ^ 7) ^ ((P25519 - 5) / 8) * v ^ 3 * u) (hv : v ≠ 0) :
    (∃ x0, v * x0 ^ 2 = u) ↔ (v * x ^ 2 = u ∨ v * x ^ 2 = -u) := by
  have hc := root_candidate u v x hx
  constructor
  · rintro ⟨x0, h0⟩
    by_cases hu : u = 0
    · left; rw [hc, hu]; ring
    · have hw : u * v ^ 7 ≠ 0 := mul_ne_zero hu (pow_ne_zero _ hv)
      have hsq : IsSquare (u * v ^ 7) := ⟨x0 * v ^ 4, by rw [← h0]; ring⟩
      have he := (ZMod.euler_criterion P25519 hw).1 hsq
      have e2 : P25519 / 2 = P25519 / 4 * 2 := by decide
      rw [e2, pow_mul] at he
      generalize (u * v ^ 7) ^ (P25519 / 4) = c at hc he
      have h3 : (c - 1) * (c + 1) = 0 := by linear_combination he
      rcases mul_eq_zero.1 h3 with h | h
      · left; rw [hc, sub_eq_zero.1 h, mul_one]
      · right; rw [hc, eq_neg_of_add_eq_zero_left h]; ring
  · rintro (h | h)
    · exact ⟨x, h⟩
    · exact ⟨fv feSqrtM1 * x, by rw [mul_pow, fv_sqrtM1]; linear_combination -h⟩

theorem curve_eq_iff (x y : F) : -x ^ 2 + y ^ 2 = 1 + dE * x ^ 2 * y ^ 2 ↔ (dE * y ^ 2 + 1) * x ^ 2 = y ^ 2 - 1 := by
  constructor <;> intro h <;> linear_combination -h

theorem v_ne (y : F) : dE * y ^ 2 + 1 ≠ 0 := by
  intro e
  obtain ⟨i, hi⟩ := complete_dE.2.1
  have hy : y ≠ 0 := by intro e0; rw [e0] at e; simp at e
  apply complete_dE.2.2
  refine ⟨i / y, ?_⟩
  field_simp
  rw [hi]
  linear_combination e

/-- An extended point, with limbs legal for multiplication, standing for a point of the curve. -/
structure WRep (p : ExtendedPoint) (P : Pt) : Prop where
  bx : p.X.within 330
  bY : p.Y.within 330
  bz : p.Z.within 330
  bt : p.T.within 330
  rep : Rep (fv p.X) (fv p.Y) (fv p.Z) (fv p.T) P

theorem affine_toBytes {X Y Z : Fe} {P : Pt} (bx : X.within 330) (bY : Y.within 330) (bz : Z.within 330) (hz : fv Z ≠ 0)
    (hx : fv X = P.x * fv Z) (hy : fv Y = P.y * fv Z) :
    (toArr 32 (flipTop (feToBytes (feMul Y (feInvert Z))).1 (feIsNegative (feMul X (feInvert Z))))).bytes = encodePoint P := by
  obtain ⟨i1, i2⟩ := fv_invert bz
  obtain ⟨x1, x2⟩ := fv_mul bx (within_mono i2 (show (101 : Int) ≤ 330 by decide))
  obtain ⟨y1, y2⟩ := fv_mul bY (within_mono i2 (show (101 : Int) ≤ 330 by decide))
  rw [i1, hx, mul_assoc, mul_inv_cancel₀ hz, mul_one] at x1
  rw [i1, hy, mul_assoc, mul_inv_cancel₀ hz, mul_one] at y1
  obtain ⟨-, t1, t2, t3⟩ := C43_to_bytes _ (within_mono y2 (show (101 : Int) ≤ 330 by decide))
  have n1 := C43_is_negative _ (within_mono x2 (show (101 : Int) ≤ 330 by decide))
  rw [← fv_val, y1] at t3
  rw [← fv_val, x1] at n1
  have hyv : P.y.val < P25519 := ZMod.val_lt _
  have hp : P25519 < 2 ^ 255 := by decide
  obtain ⟨f1, f2, f3⟩ := flipTop_val _ t1 t2 (by rw [t3]; omega) _ (show 0 ≤ feIsNegative (feMul X (feInvert Z)) ∧
    feIsNegative (feMul X (feInvert Z)) < 2 by rw [n1]; omega)
  apply leNat_inj ((toArr 32 _).len.trans (encodePoint_length _).symm)
  rw [leNat_encodePoint]
  have hv := f3
  rw [t3] at hv
  have hv2 : leVal (flipTop (feToBytes (feMul Y (feInvert Z))).1 (feIsNegative (feMul X (feInvert Z)))) =
      (P.y.val : Int) + 2 ^ 255 * ((P.x.val : Int) % 2) := by rw [hv]; exact congrArg (fun z => (P.y.val : Int) + 2 ^ 255 * z) n1
  have := leNat_toArr f1 f2
  rw [hv2] at this
  generalize P.y.val = a at this ⊢
  generalize P.x.val = b at this ⊢
  omega

/-- The sign selection at the end of FromBytes. -/
theorem sign_select {X : Fe} {t : Int} (bX : X.within 200) (ht : t = 0 ∨ t = 1) :
    let X1 := if feIsNegative X ≠ t then feNeg (feToBytes X).2 else (feToBytes X).2
    (fv X1 = fv X ∨ fv X1 = -fv X) ∧ X1.within 200 ∧ (fv X1 = 0 ∨ ((fv X1).val % 2 : Nat) = t) := by
  intro X1
  have hX : X.within 330 := within_mono bX (by decide)
  obtain ⟨r1, r2⟩ := fv_toBytes2 hX
  have n1 := C43_is_negative _ hX
  rw [← fv_val] at n1
  by_cases h : feIsNegative X ≠ t
  · have e : X1 = feNeg (feToBytes X).2 := if_pos h
    obtain ⟨g1, g2⟩ := fv_neg r2 (by decide)
    rw [e, g1, r1]
    refine ⟨Or.inr rfl, g2, ?_⟩
    by_cases h0 : fv X = 0
    · left; rw [h0, neg_zero]
    · right
      have hp := parity_neg h0
      rcases ht with rfl | rfl <;> omega
  · have e : X1 = (feToBytes X).2 := if_neg h
    rw [e, r1]
    refine ⟨Or.inl rfl, r2, Or.inr ?_⟩
    rw [← not_not.1 h, n1]
    push_cast; rfl

end Verif
