import Verif.Proofs.Edwards
import Verif.Proofs.Prime
import Mathlib.NumberTheory.LegendreSymbol.Basic
/-
The curve of Ed25519: its parameters satisfy the conditions of the group law, so its points form a commutative group.
-/
namespace Verif.Ed
open Verif.Limb

instance : _root_.Fact (Nat.Prime P25519) := ⟨prime_P25519⟩

/-- The field of 2^255 - 19 elements. -/
abbrev F := ZMod P25519

/-- The curve constant -121665/121666. -/
def dE : F := -121665 / 121666

/-- The points of the Ed25519 curve. -/
abbrev Pt := Point F dE

theorem natF_eq {a b : Nat} (h : a % P25519 = b % P25519) : (a : F) = (b : F) := (ZMod.natCast_eq_natCast_iff' a b P25519).2 h
theorem natF_ne {a b : Nat} (h : a % P25519 ≠ b % P25519) : (a : F) ≠ (b : F) := fun e =>
  h ((ZMod.natCast_eq_natCast_iff' a b P25519).1 e)

def dN : Nat := 37095705934669439343138083508754565189542113879843219016388785533085940283555
def iN : Nat := 19681161376707505956807079304988542015446066515923890162744021073123829784752
def bxN : Nat := 15112221349535400772501151409588531511454012693041857206046113283949847762202
def byN : Nat := 46316835694926478169428394003475163141307993866256225615783033603165251855960

theorem smallF_ne {a : Nat} (h : a % P25519 ≠ 0) : (a : F) ≠ 0 := by
  have := natF_ne (a := a) (b := 0) (by simpa using h)
  simpa using this

theorem dE_eq : dE = (dN : F) := by
  have h : ((121666 : Nat) : F) ≠ 0 := smallF_ne (by decide +kernel)
  have e : ((dN * 121666 + 121665 : Nat) : F) = ((0 : Nat) : F) := natF_eq (by decide +kernel)
  push_cast at e h
  unfold dE
  rw [div_eq_iff h]
  linear_combination -e

theorem complete_dE : Complete dE := by
  refine ⟨?_, ⟨(iN : F), ?_⟩, ?_⟩
  · have := smallF_ne (a := 2) (by decide +kernel)
    simpa using this
  · have e : ((iN ^ 2 + 1 : Nat) : F) = ((0 : Nat) : F) := natF_eq (by decide +kernel)
    push_cast at e
    linear_combination e
  · rw [dE_eq]
    have hd : (dN : F) ≠ 0 := smallF_ne (by decide +kernel)
    rw [ZMod.euler_criterion P25519 hd, ← Nat.cast_pow, ← Nat.cast_one]
    apply natF_ne
    rw [← powMod_eq P25519 255 dN _ (by decide +kernel)]
    decide +kernel

instance : Add Pt := ⟨Point.add complete_dE⟩
instance : Zero Pt := ⟨Point.zero⟩
instance : Neg Pt := ⟨Point.inv⟩

/-- The group of points. -/
instance : AddCommGroup Pt where
  add_assoc := Point.add_assoc complete_dE
  zero_add := Point.zero_add complete_dE
  add_zero P := by rw [show P + 0 = 0 + P from Point.add_comm complete_dE P 0]; exact Point.zero_add complete_dE P
  add_comm := Point.add_comm complete_dE
  neg_add_cancel := Point.inv_add complete_dE
  nsmul := nsmulRec
  zsmul := zsmulRec

theorem add_x (P Q : Pt) : (P + Q).x = (P.x * Q.y + Q.x * P.y) / (1 + dE * P.x * Q.x * P.y * Q.y) := rfl
theorem add_y (P Q : Pt) : (P + Q).y = (P.y * Q.y + P.x * Q.x) / (1 - dE * P.x * Q.x * P.y * Q.y) := rfl
theorem zero_x : (0 : Pt).x = 0 := rfl
theorem zero_y : (0 : Pt).y = 1 := rfl
theorem neg_x (P : Pt) : (-P).x = -P.x := rfl
theorem neg_y (P : Pt) : (-P).y = P.y := rfl

/-- The base point: y = 4/5 and x even. -/
def B : Pt := ⟨(bxN : F), (byN : F), by
  rw [dE_eq]
  have e : ((byN ^ 2 : Nat) : F) = ((1 + dN * bxN ^ 2 * byN ^ 2 + bxN ^ 2 : Nat) : F) := natF_eq (by decide +kernel)
  push_cast at e
  linear_combination e⟩

theorem B_y : B.y = 4 / 5 := by
  have h : ((5 : Nat) : F) ≠ 0 := smallF_ne (by decide +kernel)
  have e : ((byN * 5 : Nat) : F) = ((4 : Nat) : F) := natF_eq (by decide +kernel)
  push_cast at e h
  rw [eq_div_iff h]
  exact e

/-- A projective quadruple `(X : Y : Z : T)` standing for a point: `x = X/Z`, `y = Y/Z`, `xy = T/Z`. -/
structure Rep (X Y Z T : F) (P : Pt) : Prop where
  z : Z ≠ 0
  x : X = P.x * Z
  y : Y = P.y * Z
  t : T = P.x * P.y * Z

theorem two_ne : (2 : F) ≠ 0 := complete_dE.1

/-- Addition of projective points (Hisil, Wong, Carter, Dawson), as used by geMixedAdd followed by ToExtended. -/
theorem Rep.add {X1 Y1 Z1 T1 X2 Y2 Z2 T2 : F} {P Q : Pt} (h1 : Rep X1 Y1 Z1 T1 P) (h2 : Rep X2 Y2 Z2 T2 Q)
    {E G Fq H : F} (hE : E = (Y1 + X1) * (Y2 + X2) - (Y1 - X1) * (Y2 - X2))
    (hH : H = (Y1 + X1) * (Y2 + X2) + (Y1 - X1) * (Y2 - X2))
    (hG : G = 2 * Z1 * Z2 + 2 * dE * T1 * T2) (hF : Fq = 2 * Z1 * Z2 - 2 * dE * T1 * T2) :
    Rep (E * Fq) (H * G) (G * Fq) (E * H) (P + Q) := by
  have hp := den_pos complete_dE P Q
  have hn := den_neg complete_dE P Q
  obtain ⟨z1, rfl, rfl, rfl⟩ := h1
  obtain ⟨z2, rfl, rfl, rfl⟩ := h2
  have eG : G = 2 * (Z1 * Z2) * (1 + dE * P.x * Q.x * P.y * Q.y) := by rw [hG]; ring
  have eF : Fq = 2 * (Z1 * Z2) * (1 - dE * P.x * Q.x * P.y * Q.y) := by rw [hF]; ring
  have hz : (2 : F) * (Z1 * Z2) ≠ 0 := mul_ne_zero two_ne (mul_ne_zero z1 z2)
  have eE : E = 2 * (Z1 * Z2) * (P.x * Q.y + Q.x * P.y) := by rw [hE]; ring
  have eH : H = 2 * (Z1 * Z2) * (P.y * Q.y + P.x * Q.x) := by rw [hH]; ring
  have hG0 : G ≠ 0 := by rw [eG]; exact mul_ne_zero hz hp
  have hF0 : Fq ≠ 0 := by rw [eF]; exact mul_ne_zero hz hn
  have ex : (P + Q).x = E / G := by rw [add_x, eE, eG, mul_div_mul_left _ _ hz]
  have ey : (P + Q).y = H / Fq := by rw [add_y, eH, eF, mul_div_mul_left _ _ hz]
  refine ⟨mul_ne_zero hG0 hF0, ?_, ?_, ?_⟩
  · rw [ex]; field_simp
  · rw [ey]; field_simp
  · rw [ex, ey]; field_simp

/-- Doubling, as used by Double followed by ToExtended or ToProjective: the four values it computes. -/
theorem Rep.double {X Y Z T : F} {P : Pt} (h : Rep X Y Z T P) {E G Fq H : F} (hE : E = (X + Y) ^ 2 - (Y ^ 2 + X ^ 2))
    (hH : H = Y ^ 2 + X ^ 2) (hG : G = Y ^ 2 - X ^ 2) (hF : Fq = 2 * Z ^ 2 - (Y ^ 2 - X ^ 2)) :
    Rep (E * Fq) (H * G) (G * Fq) (E * H) (P + P) := by
  have hp := den_pos complete_dE P P
  have hn := den_neg complete_dE P P
  obtain ⟨z, rfl, rfl, rfl⟩ := h
  have on := P.on
  have eG : G = Z ^ 2 * (1 + dE * P.x * P.x * P.y * P.y) := by rw [hG]; linear_combination Z ^ 2 * on
  have eF : Fq = Z ^ 2 * (1 - dE * P.x * P.x * P.y * P.y) := by rw [hF]; linear_combination -Z ^ 2 * on
  have hz : Z ^ 2 ≠ 0 := pow_ne_zero 2 z
  have eE : E = Z ^ 2 * (P.x * P.y + P.x * P.y) := by rw [hE]; ring
  have eH : H = Z ^ 2 * (P.y * P.y + P.x * P.x) := by rw [hH]; ring
  have hG0 : G ≠ 0 := by rw [eG]; exact mul_ne_zero hz hp
  have hF0 : Fq ≠ 0 := by rw [eF]; exact mul_ne_zero hz hn
  have ex : (P + P).x = E / G := by rw [add_x, eE, eG, mul_div_mul_left _ _ hz]
  have ey : (P + P).y = H / Fq := by rw [add_y, eH, eF, mul_div_mul_left _ _ hz]
  refine ⟨mul_ne_zero hG0 hF0, ?_, ?_, ?_⟩
  · rw [ex]; field_simp
  · rw [ey]; field_simp
  · rw [ex, ey]; field_simp

end Verif.Ed
