import Verif.Proofs.Curve
import Verif.Model.Group
import Verif.Spec.Field
import Mathlib.GroupTheory.OrderOfElement
/-
Computations on the curve the kernel can do: the base point has order L25519, and the table of const.go holds the multiples
of the base point it should.
-/
set_option linter.unusedSimpArgs false
set_option maxRecDepth 100000
namespace Verif.Ed
open Verif.Limb

/-- A projective point with natural numbers as coordinates. -/
structure PtN where
  X : Nat
  Y : Nat
  Z : Nat
  T : Nat

def PtN.rep (q : PtN) (P : Pt) : Prop := Rep (q.X : F) (q.Y : F) (q.Z : F) (q.T : F) P

/-- Subtraction modulo the prime, of reduced numbers. -/
def subN (a b : Nat) : Nat := a + P25519 - b

theorem subN_cast {a b : Nat} (h : b ≤ P25519) : (subN a b : F) = (a : F) - (b : F) := by
  unfold subN
  rw [Nat.cast_sub (by omega), Nat.cast_add]
  simp

theorem modN_cast (a : Nat) : ((a % P25519 : Nat) : F) = (a : F) := by simp

theorem modN_le (a : Nat) : a % P25519 ≤ P25519 := Nat.le_of_lt (Nat.mod_lt _ (by decide +kernel))

/-- Addition on natural numbers. -/
def PtN.add (p q : PtN) : PtN :=
  let a := subN p.Y (p.X % P25519) * subN q.Y (q.X % P25519) % P25519
  let b := (p.Y + p.X) * (q.Y + q.X) % P25519
  let c := 2 * dN * p.T * q.T % P25519
  let dd := 2 * p.Z * q.Z % P25519
  let e := subN b a
  let f := subN dd c
  let g := dd + c
  let h := b + a
  ⟨e * f % P25519, h * g % P25519, g * f % P25519, e * h % P25519⟩

theorem PtN.add_rep {p q : PtN} {P Q : Pt} (hp : p.rep P) (hq : q.rep Q) : (p.add q).rep (P + Q) := by
  have := Rep.add hp hq (E := (subN ((p.Y + p.X) * (q.Y + q.X) % P25519) (subN p.Y (p.X % P25519) * subN q.Y (q.X % P25519) % P25519) : F))
    (H := ((((p.Y + p.X) * (q.Y + q.X) % P25519 + subN p.Y (p.X % P25519) * subN q.Y (q.X % P25519) % P25519 : Nat)) : F))
    (G := ((2 * p.Z * q.Z % P25519 + 2 * dN * p.T * q.T % P25519 : Nat) : F))
    (Fq := (subN (2 * p.Z * q.Z % P25519) (2 * dN * p.T * q.T % P25519) : F)) ?_ ?_ ?_ ?_
  · unfold PtN.rep PtN.add
    simp only [modN_cast, Nat.cast_mul, Nat.cast_add]
    simp only [modN_cast, Nat.cast_mul, Nat.cast_add] at this
    exact this
  · rw [subN_cast (modN_le _)]
    simp only [modN_cast, Nat.cast_mul, Nat.cast_add, subN_cast (modN_le _)]
  · simp only [modN_cast, Nat.cast_mul, Nat.cast_add, subN_cast (modN_le _)]
  · simp only [modN_cast, Nat.cast_mul, Nat.cast_add, subN_cast (modN_le _), dE_eq]; norm_num
  · rw [subN_cast (modN_le _)]
    simp only [modN_cast, Nat.cast_mul, Nat.cast_add, subN_cast (modN_le _), dE_eq]; norm_num

def PtN.zero : PtN := ⟨0, 1, 1, 0⟩
theorem PtN.zero_rep : PtN.zero.rep 0 := by
  refine ⟨?_, ?_, ?_, ?_⟩ <;> simp [PtN.zero, zero_x, zero_y]

/-- `n • q` by doubling, `k` an upper bound on the number of bits of `n`. -/
def PtN.mul : Nat → Nat → PtN → PtN
  | 0, _, _ => PtN.zero
  | k + 1, n, q => if n % 2 = 1 then q.add (PtN.mul k (n / 2) (q.add q)) else PtN.mul k (n / 2) (q.add q)

theorem PtN.mul_rep : ∀ (k n : Nat) (q : PtN) (P : Pt), n < 2 ^ k → q.rep P → (PtN.mul k n q).rep (n • P)
  | 0, n, q, P, h, _ => by
    have : n = 0 := by simpa using h
    subst this
    rw [zero_smul]
    exact PtN.zero_rep
  | k + 1, n, q, P, h, hq => by
    have ih := PtN.mul_rep k (n / 2) (q.add q) (P + P) (by rw [Nat.pow_succ] at h; omega) (PtN.add_rep hq hq)
    have e2 : (n / 2) • (P + P) = (2 * (n / 2)) • P := by rw [← two_smul ℕ P, smul_smul, Nat.mul_comm]
    rw [e2] at ih
    unfold PtN.mul
    split
    · next h1 =>
      have := PtN.add_rep hq ih
      rw [← succ_nsmul', show 2 * (n / 2) + 1 = n by omega] at this
      exact this
    · next h1 =>
      rw [show 2 * (n / 2) = n by omega] at ih
      exact ih

def BN : PtN := ⟨bxN, byN, 1, bxN * byN⟩
theorem BN_rep : BN.rep B := by
  refine ⟨?_, ?_, ?_, ?_⟩ <;> simp [BN, B]

theorem zero_of_rep {q : PtN} {P : Pt} (h : q.rep P) (hx : q.X % P25519 = 0) (hy : q.Y % P25519 = q.Z % P25519) : P = 0 := by
  have e1 : (q.X : F) = ((0 : Nat) : F) := natF_eq (by simpa using hx)
  have e2 : (q.Y : F) = (q.Z : F) := natF_eq hy
  have hz := h.z
  apply Point.ext
  · have := h.x
    rw [e1] at this
    simp only [Nat.cast_zero] at this
    exact (mul_eq_zero.1 this.symm).resolve_right hz
  · have := h.y
    rw [e2] at this
    show P.y = 1
    exact mul_right_cancel₀ hz (by rw [one_mul]; exact this.symm)

/-- The order of the base point annihilates it. -/
theorem order_B : L25519 • B = 0 := by
  refine zero_of_rep (PtN.mul_rep 253 L25519 BN B (by decide +kernel) BN_rep) ?_ ?_ <;> decide +kernel

theorem B_ne : B ≠ 0 := by
  intro h
  have : B.x = 0 := by rw [h]; rfl
  exact smallF_ne (a := bxN) (by decide +kernel) this

/-- A multiple of the base point is zero exactly for the multiples of its order. -/
theorem nsmul_B_eq_zero (n : Nat) : n • B = 0 ↔ L25519 ∣ n := by
  have : _root_.Fact (Nat.Prime L25519) := ⟨prime_L25519⟩
  have ho : addOrderOf B = L25519 := addOrderOf_eq_prime order_B B_ne
  rw [← ho, addOrderOf_dvd_iff_nsmul_eq_zero]

/-- The field value of a limb vector. -/
def fv (f : Fe) : F := ((f.val : Int) : F)

/-- A table entry standing for a point. -/
structure PreRep (q : PrePoint) (P : Pt) : Prop where
  bp : q.yPlusX.within 100
  bm : q.yMinusX.within 100
  bd : q.xy2d.within 100
  p : fv q.yPlusX = P.y + P.x
  m : fv q.yMinusX = P.y - P.x
  d : fv q.xy2d = 2 * dE * P.x * P.y

/-- Reduction of an integer. -/
def redN (z : Int) : Nat := (z % (P25519 : Int)).toNat
theorem redN_cast (z : Int) : ((redN z : Nat) : F) = (z : F) := by
  unfold redN
  have h : 0 ≤ z % (P25519 : Int) := Int.emod_nonneg _ (by decide +kernel)
  have : (((z % (P25519 : Int)).toNat : Int) : F) = ((z % (P25519 : Int) : Int) : F) := by rw [Int.toNat_of_nonneg h]
  rw [← Int.cast_natCast, this]
  rw [ZMod.intCast_mod]

def withinB (c : Int) (l : List Int) : Bool :=
  (List.range 10).all fun i => decide (-(c * 2 ^ (25 - i % 2)) ≤ 100 * l.getD i 0) && decide (100 * l.getD i 0 ≤ c * 2 ^ (25 - i % 2))

theorem withinB_ok {c : Int} {l : List Int} (h : withinB c l = true) : (Fe.of l).within c := by
  intro i
  unfold withinB at h
  rw [List.all_eq_true] at h
  have := h i.val (List.mem_range.2 i.isLt)
  simp only [Bool.and_eq_true, decide_eq_true_eq] at this
  exact this

/-- Check one entry against a projective point. -/
def checkEntry (e : List (List Int)) (q : PtN) : Bool :=
  let p := e.getD 0 []
  let m := e.getD 1 []
  let t := e.getD 2 []
  withinB 100 p && withinB 100 m && withinB 100 t &&
  decide (redN (Fe.of p).val * q.Z % P25519 = (q.Y + q.X) % P25519) &&
  decide (redN (Fe.of m).val * q.Z % P25519 = subN q.Y (q.X % P25519) % P25519) &&
  decide (redN (Fe.of t).val * q.Z % P25519 = 2 * dN * q.T % P25519)

theorem checkEntry_ok {e : List (List Int)} {q : PtN} {P : Pt} (hq : q.rep P) (h : checkEntry e q = true) :
    PreRep ⟨Fe.of (e.getD 0 []), Fe.of (e.getD 1 []), Fe.of (e.getD 2 [])⟩ P := by
  simp only [checkEntry, Bool.and_eq_true, decide_eq_true_eq] at h
  obtain ⟨⟨⟨⟨⟨h1, h2⟩, h3⟩, h4⟩, h5⟩, h6⟩ := h
  have hz := hq.z
  have e4 := natF_eq h4
  have e5 := natF_eq h5
  have e6 := natF_eq h6
  rw [subN_cast (modN_le _)] at e5
  simp only [Nat.cast_mul, Nat.cast_add, redN_cast, modN_cast] at e4 e5 e6
  refine ⟨withinB_ok h1, withinB_ok h2, withinB_ok h3, ?_, ?_, ?_⟩
  · apply mul_right_cancel₀ hz
    unfold fv
    rw [e4, hq.x, hq.y]; ring
  · apply mul_right_cancel₀ hz
    unfold fv
    rw [e5, hq.x, hq.y]; ring
  · apply mul_right_cancel₀ hz
    unfold fv
    rw [e6, ← dE_eq, hq.t, Nat.cast_ofNat]; ring

/-- Check a row: its entries are `cur`, `cur + q`, `cur + 2q`, … -/
def checkRow : List (List (List Int)) → PtN → PtN → Bool
  | [], _, _ => true
  | e :: l, q, cur => checkEntry e cur && checkRow l q (cur.add q)

theorem checkRow_ok : ∀ (l : List (List (List Int))) (q cur : PtN) (P C : Pt), q.rep P → cur.rep C → checkRow l q cur = true →
    ∀ i, i < l.length → PreRep ⟨Fe.of ((l.getD i []).getD 0 []), Fe.of ((l.getD i []).getD 1 []), Fe.of ((l.getD i []).getD 2 [])⟩ (C + i • P)
  | [], _, _, _, _, _, _, _, i, hi => by simp at hi
  | e :: l, q, cur, P, C, hq, hc, h, i, hi => by
    simp only [checkRow, Bool.and_eq_true] at h
    cases i with
    | zero =>
      rw [zero_smul, add_zero]
      exact checkEntry_ok hc h.1
    | succ i =>
      have := checkRow_ok l q (cur.add q) P (C + P) hq (PtN.add_rep hc hq) h.2 i (by simpa using hi)
      rw [add_assoc, ← succ_nsmul'] at this
      simpa using this

/-- Check the table: row `pos` holds 1 to 8 times `256^pos` times the point. -/
def checkTable : List (List (List (List Int))) → PtN → Bool
  | [], _ => true
  | r :: l, q => decide (r.length = 8) && checkRow r q q && checkTable l (PtN.mul 9 256 q)

theorem checkTable_ok : ∀ (l : List (List (List (List Int)))) (q : PtN) (P : Pt), q.rep P → checkTable l q = true →
    ∀ pos i, pos < l.length → i < 8 → PreRep ⟨Fe.of (((l.getD pos []).getD i []).getD 0 []), Fe.of (((l.getD pos []).getD i []).getD 1 []),
      Fe.of (((l.getD pos []).getD i []).getD 2 [])⟩ (((i + 1) * 256 ^ pos) • P)
  | [], _, _, _, _, pos, _, hp, _ => by simp at hp
  | r :: l, q, P, hq, h, pos, i, hp, hi => by
    simp only [checkTable, Bool.and_eq_true, decide_eq_true_eq] at h
    cases pos with
    | zero =>
      have := checkRow_ok r q q P P hq hq h.1.2 i (by omega)
      rw [← succ_nsmul'] at this
      simpa using this
    | succ pos =>
      have := checkTable_ok l _ (256 • P) (PtN.mul_rep 9 256 q P (by decide) hq) h.2 pos i (by simpa using hp) hi
      rw [smul_smul, Nat.mul_assoc, ← Nat.pow_succ] at this
      simpa using this

theorem table_checked : checkTable baseLimbs BN = true := by decide +kernel

/-- Every entry of the table is the multiple of the base point it should be. -/
theorem baseEntry_rep (pos i : Nat) (hp : pos < 32) (hi : i < 8) : PreRep (baseEntry pos i) (((i + 1) * 256 ^ pos) • B) :=
  checkTable_ok baseLimbs BN B BN_rep table_checked pos i hp hi

end Verif.Ed
