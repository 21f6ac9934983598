import Verif.Proofs.Order
import Verif.Props.Field
import Mathlib.Tactic.IntervalCases
import Mathlib.Algebra.BigOperators.Intervals
/-
The point operations of edwards25519.go compute in the group of the curve.
-/
set_option linter.unusedSimpArgs false
set_option maxRecDepth 100000
namespace Verif.Ed
open Verif.Limb

theorem fv_congr {f : Fe} {n : Int} (h : f.val % P25519 = n % P25519) : fv f = (n : F) :=
  (ZMod.intCast_eq_intCast_iff' _ _ _).2 h

theorem fv_mul {f g : Fe} (hf : f.within 330) (hg : g.within 330) : fv (feMul f g) = fv f * fv g ∧ (feMul f g).within 101 := by
  obtain ⟨-, h2, h3⟩ := C43_mul f g hf hg
  exact ⟨by rw [fv_congr h3, Int.cast_mul]; rfl, h2⟩
theorem fv_square {f : Fe} (hf : f.within 330) : fv (feSquare f) = fv f ^ 2 ∧ (feSquare f).within 101 := by
  obtain ⟨-, h2, h3⟩ := C43_square f hf
  exact ⟨by rw [fv_congr h3, Int.cast_mul, sq]; rfl, h2⟩
theorem fv_square2 {f : Fe} (hf : f.within 330) : fv (feSquare2 f) = 2 * fv f ^ 2 ∧ (feSquare2 f).within 101 := by
  obtain ⟨-, h2, h3⟩ := C43_square2 f hf
  exact ⟨by rw [fv_congr h3, Int.cast_mul, Int.cast_mul, sq]; rfl, h2⟩
theorem fv_add {a b : Int} {f g : Fe} (hf : f.within a) (hg : g.within b) (ha : a ≤ 3000) (hb : b ≤ 3000) :
    fv (feAdd f g) = fv f + fv g ∧ (feAdd f g).within (a + b) := by
  obtain ⟨-, h2, h3⟩ := C43_add a b f g hf hg ha hb
  exact ⟨by unfold fv; rw [h3, Int.cast_add], h2⟩
theorem fv_sub {a b : Int} {f g : Fe} (hf : f.within a) (hg : g.within b) (ha : a ≤ 3000) (hb : b ≤ 3000) :
    fv (feSub f g) = fv f - fv g ∧ (feSub f g).within (a + b) := by
  obtain ⟨-, h2, h3⟩ := C43_sub a b f g hf hg ha hb
  exact ⟨by unfold fv; rw [h3, Int.cast_sub], h2⟩
theorem fv_neg {a : Int} {f : Fe} (hf : f.within a) (ha : a ≤ 3000) : fv (feNeg f) = -fv f ∧ (feNeg f).within a := by
  obtain ⟨-, h2, h3⟩ := C43_neg a f hf ha
  exact ⟨by unfold fv; rw [h3, Int.cast_neg], h2⟩
theorem fv_zero : fv feZero = 0 ∧ feZero.within 0 := ⟨by unfold fv; rw [C43_constants.1]; simp, C43_constants.2.2.1⟩
theorem fv_one : fv feOne = 1 ∧ feOne.within 1 := ⟨by unfold fv; rw [C43_constants.2.1]; simp, C43_constants.2.2.2⟩

/-- An extended point with small limbs standing for a point of the curve. -/
structure ERep (p : ExtendedPoint) (P : Pt) : Prop where
  bx : p.X.within 101
  bY : p.Y.within 101
  bz : p.Z.within 101
  bt : p.T.within 101
  rep : Rep (fv p.X) (fv p.Y) (fv p.Z) (fv p.T) P

/-- The same for projective points, which have no T. -/
structure QRep (p : ProjectivePoint) (P : Pt) : Prop where
  bx : p.X.within 101
  bY : p.Y.within 101
  bz : p.Z.within 101
  z : fv p.Z ≠ 0
  x : fv p.X = P.x * fv p.Z
  y : fv p.Y = P.y * fv p.Z

theorem ERep.q {p : ExtendedPoint} {P : Pt} (h : ERep p P) : QRep p.toProjective P :=
  ⟨h.bx, h.bY, h.bz, h.rep.z, h.rep.x, h.rep.y⟩

/-- A completed point with limbs legal for FeMul, and the point its products stand for. -/
structure CRep (p : CompletedPoint) (P : Pt) : Prop where
  bx : p.X.within 330
  bY : p.Y.within 330
  bz : p.Z.within 330
  bt : p.T.within 330
  rep : Rep (fv p.X * fv p.T) (fv p.Y * fv p.Z) (fv p.Z * fv p.T) (fv p.X * fv p.Y) P

theorem CRep.ext {p : CompletedPoint} {P : Pt} (h : CRep p P) : ERep p.toExtended P := by
  obtain ⟨a1, a2⟩ := fv_mul h.bx h.bt
  obtain ⟨b1, b2⟩ := fv_mul h.bY h.bz
  obtain ⟨c1, c2⟩ := fv_mul h.bz h.bt
  obtain ⟨d1, d2⟩ := fv_mul h.bx h.bY
  refine ⟨a2, b2, c2, d2, ?_⟩
  simp only [CompletedPoint.toExtended]
  rw [a1, b1, c1, d1]
  exact h.rep

theorem CRep.q {p : CompletedPoint} {P : Pt} (h : CRep p P) : QRep p.toProjective P := h.ext.q

/-- Double. -/
theorem QRep.double {p : ProjectivePoint} {P : Pt} (h : QRep p P) : CRep p.double (P + P) := by
  obtain ⟨a1, a2⟩ := fv_square (within_mono h.bx (show (101 : Int) ≤ 330 by decide))
  obtain ⟨b1, b2⟩ := fv_square (within_mono h.bY (show (101 : Int) ≤ 330 by decide))
  obtain ⟨c1, c2⟩ := fv_square2 (within_mono h.bz (show (101 : Int) ≤ 330 by decide))
  obtain ⟨d1, d2⟩ := fv_add h.bx h.bY (by decide) (by decide)
  obtain ⟨e1, e2⟩ := fv_square (within_mono d2 (show (101 + 101 : Int) ≤ 330 by decide))
  obtain ⟨f1, f2⟩ := fv_add b2 a2 (by decide) (by decide)
  obtain ⟨g1, g2⟩ := fv_sub b2 a2 (by decide) (by decide)
  obtain ⟨i1, i2⟩ := fv_sub e2 f2 (by decide) (by decide)
  obtain ⟨j1, j2⟩ := fv_sub c2 g2 (by decide) (by decide)
  refine ⟨within_mono i2 (by decide), within_mono f2 (by decide), within_mono g2 (by decide), within_mono j2 (by decide), ?_⟩
  have hr : Rep (fv p.X) (fv p.Y) (fv p.Z) (P.x * P.y * fv p.Z) P := ⟨h.z, h.x, h.y, rfl⟩
  exact hr.double (by simp only [ProjectivePoint.double]; rw [i1, e1, f1, d1, a1, b1])
    (by simp only [ProjectivePoint.double]; rw [f1, a1, b1])
    (by simp only [ProjectivePoint.double]; rw [g1, a1, b1])
    (by simp only [ProjectivePoint.double]; rw [j1, g1, c1, a1, b1])

/-- geMixedAdd. -/
theorem ERep.mixedAdd {p : ExtendedPoint} {P : Pt} (h : ERep p P) {q : PrePoint} {Q : Pt} (hq : PreRep q Q) :
    CRep (geMixedAdd p q) (P + Q) := by
  obtain ⟨a1, a2⟩ := fv_add h.bY h.bx (by decide) (by decide)
  obtain ⟨b1, b2⟩ := fv_sub h.bY h.bx (by decide) (by decide)
  obtain ⟨c1, c2⟩ := fv_mul (within_mono a2 (show (101 + 101 : Int) ≤ 330 by decide)) (within_mono hq.bp (show (100 : Int) ≤ 330 by decide))
  obtain ⟨d1, d2⟩ := fv_mul (within_mono b2 (show (101 + 101 : Int) ≤ 330 by decide)) (within_mono hq.bm (show (100 : Int) ≤ 330 by decide))
  obtain ⟨e1, e2⟩ := fv_mul (within_mono hq.bd (show (100 : Int) ≤ 330 by decide)) (within_mono h.bt (show (101 : Int) ≤ 330 by decide))
  obtain ⟨f1, f2⟩ := fv_add h.bz h.bz (by decide) (by decide)
  obtain ⟨g1, g2⟩ := fv_sub c2 d2 (by decide) (by decide)
  obtain ⟨i1, i2⟩ := fv_add c2 d2 (by decide) (by decide)
  obtain ⟨j1, j2⟩ := fv_add f2 e2 (by decide) (by decide)
  obtain ⟨k1, k2⟩ := fv_sub f2 e2 (by decide) (by decide)
  refine ⟨within_mono g2 (by decide), within_mono i2 (by decide), within_mono j2 (by decide), within_mono k2 (by decide), ?_⟩
  have hr : Rep (Q.x) (Q.y) 1 (Q.x * Q.y) Q := ⟨one_ne_zero, by ring, by ring, by ring⟩
  exact h.rep.add hr (by simp only [geMixedAdd]; rw [g1, c1, d1, a1, b1, hq.p, hq.m])
    (by simp only [geMixedAdd]; rw [i1, c1, d1, a1, b1, hq.p, hq.m])
    (by simp only [geMixedAdd]; rw [j1, f1, e1, hq.d]; ring)
    (by simp only [geMixedAdd]; rw [k1, f1, e1, hq.d]; ring)

theorem ERep.zero : ERep ExtendedPoint.zero 0 := by
  obtain ⟨z1, z2⟩ := fv_zero
  obtain ⟨o1, o2⟩ := fv_one
  refine ⟨within_mono z2 (by decide), within_mono o2 (by decide), within_mono o2 (by decide), within_mono z2 (by decide), ?_⟩
  simp only [ExtendedPoint.zero]
  rw [z1, o1]
  exact ⟨one_ne_zero, by simp [zero_x], by simp [zero_y], by simp [zero_x]⟩

theorem PreRep.zero : PreRep PrePoint.zero 0 := by
  obtain ⟨z1, z2⟩ := fv_zero
  obtain ⟨o1, o2⟩ := fv_one
  refine ⟨within_mono o2 (by decide), within_mono o2 (by decide), within_mono z2 (by decide), ?_, ?_, ?_⟩ <;>
    simp only [PrePoint.zero, z1, o1, zero_x, zero_y] <;> ring

theorem preCMove_zero {t u : PrePoint} {P Q : Pt} (ht : PreRep t P) (hu : PreRep u Q) : preCMove t u 0#32 = t := by
  have w : ∀ {f : Fe}, f.within 100 → f.within 3000 := fun h => within_mono h (by decide)
  simp only [preCMove, show (0#32).toInt = 0 from rfl, (C43_cmove _ _ (w ht.bp) (w hu.bp)).1, (C43_cmove _ _ (w ht.bm) (w hu.bm)).1,
    (C43_cmove _ _ (w ht.bd) (w hu.bd)).1]

theorem preCMove_one {t u : PrePoint} {P Q : Pt} (ht : PreRep t P) (hu : PreRep u Q) : preCMove t u 1#32 = u := by
  have w : ∀ {f : Fe}, f.within 100 → f.within 3000 := fun h => within_mono h (by decide)
  simp only [preCMove, show (1#32).toInt = 1 from rfl, (C43_cmove _ _ (w ht.bp) (w hu.bp)).2, (C43_cmove _ _ (w ht.bm) (w hu.bm)).2,
    (C43_cmove _ _ (w ht.bd) (w hu.bd)).2]

theorem PreRep.neg {t : PrePoint} {P : Pt} (h : PreRep t P) : PreRep ⟨t.yMinusX, t.yPlusX, feNeg t.xy2d⟩ (-P) := by
  obtain ⟨n1, n2⟩ := fv_neg h.bd (by decide)
  refine ⟨h.bm, h.bp, n2, ?_, ?_, ?_⟩
  · rw [neg_x, neg_y]; simp only; rw [h.m]; ring
  · rw [neg_x, neg_y]; simp only; rw [h.p]; ring
  · rw [neg_x, neg_y]; simp only; rw [n1, h.d]; ring

/-- The comparison used by the selection. -/
theorem equal32_small (k i : Nat) (hk : k ≤ 8) (hi : i < 8) :
    equal32 (BitVec.ofNat 32 k) (BitVec.ofNat 32 (i + 1)) = if k = i + 1 then 1#32 else 0#32 := by
  interval_cases k <;> interval_cases i <;> decide

/-- The loop picks the entry with the given index, or the neutral element. -/
theorem selectLoop_rep (pos k : Nat) (hp : pos < 32) (hk : k ≤ 8) : ∀ (l : List Nat) (t : PrePoint) (T : Pt), (∀ i ∈ l, i < 8) →
    PreRep t T → PreRep (selectLoop pos (BitVec.ofNat 32 k) l t) (if 1 ≤ k ∧ k - 1 ∈ l then (k * 256 ^ pos) • B else T)
  | [], t, T, _, ht => by simpa [selectLoop] using ht
  | i :: l, t, T, hl, ht => by
    have hi := hl i (List.mem_cons_self ..)
    have hb := baseEntry_rep pos i hp hi
    simp only [selectLoop]
    rw [equal32_small k i hk hi]
    by_cases h : k = i + 1
    · rw [if_pos h, preCMove_one ht hb]
      have := selectLoop_rep pos k hp hk l _ _ (fun j hj => hl j (List.mem_cons_of_mem _ hj)) hb
      rw [← h, ite_self] at this
      rw [if_pos ⟨by omega, by rw [h]; simp⟩]
      exact this
    · rw [if_neg h, preCMove_zero ht hb]
      have := selectLoop_rep pos k hp hk l _ _ (fun j hj => hl j (List.mem_cons_of_mem _ hj)) ht
      have e : (1 ≤ k ∧ k - 1 ∈ i :: l) ↔ (1 ≤ k ∧ k - 1 ∈ l) := by
        simp only [List.mem_cons]
        constructor
        · rintro ⟨h1, h2 | h2⟩
          · omega
          · exact ⟨h1, h2⟩
        · rintro ⟨h1, h2⟩; exact ⟨h1, .inr h2⟩
      simp only [e]
      exact this

/-- selectPoint returns `b * 256^pos` times the base point for every digit from -8 to 8. -/
theorem selectPoint_rep (pos : Nat) (hp : pos < 32) (b : Int) (h1 : -8 ≤ b) (h2 : b ≤ 8) :
    PreRep (selectPoint pos (BitVec.ofInt 32 b)) ((b * 256 ^ pos) • B) := by
  have hneg : negative32 (BitVec.ofInt 32 b) = if b < 0 then 1#32 else 0#32 := by
    interval_cases b <;> decide
  have habs : BitVec.ofInt 32 b - (((-negative32 (BitVec.ofInt 32 b)) &&& BitVec.ofInt 32 b) <<< 1) = BitVec.ofNat 32 b.natAbs := by
    interval_cases b <;> decide
  unfold selectPoint
  simp only
  rw [habs, hneg]
  have hk : b.natAbs ≤ 8 := by omega
  have hl := selectLoop_rep pos b.natAbs hp hk (List.range 8) PrePoint.zero 0 (fun i hi => List.mem_range.1 hi) PreRep.zero
  have hl' : PreRep (selectLoop pos (BitVec.ofNat 32 b.natAbs) (List.range 8) PrePoint.zero) ((b.natAbs * 256 ^ pos) • B) := by
    by_cases h0 : b.natAbs = 0
    · rw [if_neg (by omega)] at hl
      rw [h0, Nat.zero_mul, zero_smul]
      rw [h0] at hl
      exact hl
    · rw [if_pos ⟨by omega, List.mem_range.2 (by omega)⟩] at hl
      exact hl
  by_cases hb : b < 0
  · rw [if_pos hb, preCMove_one hl' hl'.neg]
    have := hl'.neg
    have e : (b * 256 ^ pos) • B = -((b.natAbs * 256 ^ pos) • B) := by
      rw [← natCast_zsmul, ← neg_smul]
      congr 1
      push_cast
      rw [abs_of_neg hb]; ring
    rw [e]
    exact this
  · rw [if_neg hb, preCMove_zero hl' hl'.neg]
    have e : (b * 256 ^ pos) • B = (b.natAbs * 256 ^ pos) • B := by
      rw [← natCast_zsmul]
      congr 1
      push_cast
      rw [abs_of_nonneg (by omega)]
    rw [e]
    exact hl'

/-- Adding a list of digits. -/
theorem addDigits_rep (e : List Int) (he : ∀ i, i < 64 → -8 ≤ e.getD i 0 ∧ e.getD i 0 ≤ 8) :
    ∀ (l : List Nat) (h : ExtendedPoint) (H : Pt), (∀ i ∈ l, i < 64) → ERep h H →
      ERep (addDigits e l h) (H + (l.map fun i => e.getD i 0 * 256 ^ (i / 2)).sum • B)
  | [], h, H, _, hh => by simpa [addDigits] using hh
  | i :: l, h, H, hl, hh => by
    have hi := hl i (List.mem_cons_self ..)
    have hs := selectPoint_rep (i / 2) (by omega) _ (he i hi).1 (he i hi).2
    have := addDigits_rep e he l _ _ (fun j hj => hl j (List.mem_cons_of_mem _ hj)) (hh.mixedAdd hs).ext
    rw [add_assoc, ← add_smul] at this
    simpa [addDigits] using this

/-- The value of a list of digits in base 16. -/
def v16 : List Int → Int
  | [] => 0
  | e :: l => e + 16 * v16 l

theorem v16_nibbles : ∀ (a : List Int), areBytes a → v16 (nibbles a) = leVal a
  | [], _ => rfl
  | b :: l, h => by
    have hb := h b (List.mem_cons_self ..)
    have ih := v16_nibbles l (fun x hx => h x (List.mem_cons_of_mem _ hx))
    have e : nibbles (b :: l) = wrap8 (b % 16) :: wrap8 (b / 16 % 16) :: nibbles l := rfl
    rw [e]
    simp only [v16, leVal, ih]
    have w1 : wrap8 (b % 16) = b % 16 := Int.bmod_eq_of_le (by omega) (by omega)
    have w2 : wrap8 (b / 16 % 16) = b / 16 % 16 := Int.bmod_eq_of_le (by omega) (by omega)
    rw [w1, w2]
    omega

theorem nibbles_length (a : List Int) : (nibbles a).length = 2 * a.length := by
  induction a with
  | nil => rfl
  | cons b l ih =>
    have e : nibbles (b :: l) = wrap8 (b % 16) :: wrap8 (b / 16 % 16) :: nibbles l := rfl
    rw [e]; simp only [List.length_cons, ih]; omega

/-- All digits between 0 and 15, the last at most 7. -/
def digitsOk : List Int → Prop
  | [] => True
  | [e] => 0 ≤ e ∧ e ≤ 7
  | e :: e' :: l => 0 ≤ e ∧ e ≤ 15 ∧ digitsOk (e' :: l)

theorem nibbles_ok : ∀ (a : List Int), areBytes a → (∀ b, a.getLast? = some b → b ≤ 127) → digitsOk (nibbles a)
  | [], _, _ => trivial
  | [b], h, hl => by
    have hb := h b (List.mem_cons_self ..)
    have hb' := hl b rfl
    show digitsOk [wrap8 (b % 16), wrap8 (b / 16 % 16)]
    have w1 : wrap8 (b % 16) = b % 16 := Int.bmod_eq_of_le (by omega) (by omega)
    have w2 : wrap8 (b / 16 % 16) = b / 16 % 16 := Int.bmod_eq_of_le (by omega) (by omega)
    rw [w1, w2]
    exact ⟨by omega, by omega, by omega, by omega⟩
  | b :: c :: l, h, hl => by
    have hb := h b (List.mem_cons_self ..)
    have ih := nibbles_ok (c :: l) (fun x hx => h x (List.mem_cons_of_mem _ hx)) (fun x hx => hl x (by simpa using hx))
    have e : nibbles (b :: c :: l) = wrap8 (b % 16) :: wrap8 (b / 16 % 16) :: nibbles (c :: l) := rfl
    have e2 : nibbles (c :: l) = wrap8 (c % 16) :: wrap8 (c / 16 % 16) :: nibbles l := rfl
    have w1 : wrap8 (b % 16) = b % 16 := Int.bmod_eq_of_le (by omega) (by omega)
    have w2 : wrap8 (b / 16 % 16) = b / 16 % 16 := Int.bmod_eq_of_le (by omega) (by omega)
    rw [e, w1, w2, e2]
    rw [e2] at ih
    exact ⟨by omega, by omega, by omega, by omega, ih⟩

theorem recode_ok : ∀ (l : List Int) (c : Int), l ≠ [] → digitsOk l → 0 ≤ c → c ≤ 1 →
    v16 (recode l c) = v16 l + c ∧ (recode l c).length = l.length ∧ ∀ x ∈ recode l c, -8 ≤ x ∧ x ≤ 8
  | [], _, h, _, _, _ => absurd rfl h
  | [e], c, _, h, h0, h1 => by
    obtain ⟨h2, h3⟩ := h
    have w : wrap8 (e + c) = e + c := Int.bmod_eq_of_le (by omega) (by omega)
    simp only [recode, w, v16]
    refine ⟨by ring, rfl, ?_⟩
    intro x hx
    simp only [List.mem_cons, List.not_mem_nil, or_false] at hx
    omega
  | e :: e' :: l, c, _, h, h0, h1 => by
    obtain ⟨h2, h3, h4⟩ := h
    have w1 : wrap8 (e + c) = e + c := Int.bmod_eq_of_le (by omega) (by omega)
    have w2 : wrap8 (e + c + 8) = e + c + 8 := Int.bmod_eq_of_le (by omega) (by omega)
    have hc : 0 ≤ (e + c + 8) / 16 ∧ (e + c + 8) / 16 ≤ 1 := by omega
    have w3 : wrap8 ((e + c + 8) / 16 * 16) = (e + c + 8) / 16 * 16 := Int.bmod_eq_of_le (by omega) (by omega)
    have w4 : wrap8 (e + c - (e + c + 8) / 16 * 16) = e + c - (e + c + 8) / 16 * 16 := Int.bmod_eq_of_le (by omega) (by omega)
    obtain ⟨i1, i2, i3⟩ := recode_ok (e' :: l) ((e + c + 8) / 16) (by simp) h4 hc.1 hc.2
    have er : recode (e :: e' :: l) c = (e + c - (e + c + 8) / 16 * 16) :: recode (e' :: l) ((e + c + 8) / 16) := by
      simp only [recode, w1, w2, w3, w4]
    rw [er]
    refine ⟨?_, by simp only [List.length_cons, i2], ?_⟩
    · show _ + 16 * v16 (recode (e' :: l) ((e + c + 8) / 16)) = e + 16 * v16 (e' :: l) + c
      rw [i1]; ring
    · intro x hx
      rcases List.mem_cons.1 hx with rfl | hx
      · omega
      · exact i3 x hx

/-- Splitting the value into even and odd digits. -/
theorem v16_split : ∀ (n : Nat) (e : List Int), e.length = 2 * n →
    v16 e = ((List.range n).map fun j => e.getD (2 * j) 0 * 256 ^ j).sum + 16 * ((List.range n).map fun j => e.getD (2 * j + 1) 0 * 256 ^ j).sum
  | 0, e, h => by
    have : e = [] := List.length_eq_zero_iff.1 (by omega)
    subst this; rfl
  | n + 1, [], h => by simp at h
  | n + 1, [_], h => by simp at h; omega
  | n + 1, a :: b :: e, h => by
    have ih := v16_split n e (by simp at h; omega)
    simp only [v16, ih]
    have step : ∀ (f g : Nat → Int), (∀ j, f (j + 1) = 256 * g j) → ((List.range (n + 1)).map f).sum = f 0 + 256 * ((List.range n).map g).sum := by
      intro f g hfg
      rw [List.range_succ_eq_map, List.map_cons, List.sum_cons, List.map_map]
      congr 1
      rw [← List.sum_map_mul_left]
      congr 1
      apply List.map_congr_left
      intro j _
      exact hfg j
    rw [step (fun j => (a :: b :: e).getD (2 * j) 0 * 256 ^ j) (fun j => e.getD (2 * j) 0 * 256 ^ j)
        (by intro j; simp only [show 2 * (j + 1) = 2 * j + 1 + 1 by omega, List.getD_cons_succ, pow_succ]; ring),
      step (fun j => (a :: b :: e).getD (2 * j + 1) 0 * 256 ^ j) (fun j => e.getD (2 * j + 1) 0 * 256 ^ j)
        (by intro j; simp only [show 2 * (j + 1) + 1 = 2 * j + 1 + 1 + 1 by omega, List.getD_cons_succ, pow_succ]; ring)]
    simp only [Nat.mul_zero, List.getD_cons_zero, pow_zero, mul_one, Nat.zero_add, List.getD_cons_succ]
    ring

/-- GeScalarMultBase: `a • B` for every 32-byte scalar whose last byte is at most 127. -/
theorem geScalarMultBase_rep (a : List Int) (hl : a.length = 32) (hb : areBytes a) (h31 : a.getD 31 0 ≤ 127) :
    ERep (geScalarMultBase a) (leVal a • B) := by
  have hlast : ∀ b, a.getLast? = some b → b ≤ 127 := by
    intro b h
    rw [List.getLast?_eq_getElem?, hl] at h
    rw [List.getD_eq_getElem?_getD, h] at h31
    exact h31
  have hn : nibbles a ≠ [] := by
    intro h
    have := nibbles_length a
    rw [h, hl] at this
    simp at this
  obtain ⟨r1, r2, r3⟩ := recode_ok (nibbles a) 0 hn (nibbles_ok a hb hlast) (by decide) (by decide)
  rw [v16_nibbles a hb, add_zero] at r1
  rw [nibbles_length, hl] at r2
  have he : ∀ i, i < 64 → -8 ≤ (recode (nibbles a) 0).getD i 0 ∧ (recode (nibbles a) 0).getD i 0 ≤ 8 := by
    intro i hi
    rw [List.getD_eq_getElem?_getD, List.getElem?_eq_getElem (by omega)]
    exact r3 _ (List.getElem_mem _)
  rw [v16_split 32 _ r2] at r1
  unfold geScalarMultBase
  simp only
  generalize recode (nibbles a) 0 = e at *
  have s1 := addDigits_rep e he ((List.range 32).map fun j => 2 * j + 1) _ _ (by
    intro i hi; simp only [List.mem_map, List.mem_range] at hi; obtain ⟨j, hj, rfl⟩ := hi; omega) ERep.zero
  have s2 := s1.q.double.q.double.q.double.q.double.ext
  have s3 := addDigits_rep e he ((List.range 32).map fun j => 2 * j) _ _ (by
    intro i hi; simp only [List.mem_map, List.mem_range] at hi; obtain ⟨j, hj, rfl⟩ := hi; omega) s2
  refine (congrArg (ERep _) ?_).mp s3
  simp only [List.map_map, zero_add]
  rw [← r1]
  have e1 : (List.range 32).map ((fun i => e.getD i 0 * 256 ^ (i / 2)) ∘ fun j => 2 * j) = (List.range 32).map fun j => e.getD (2 * j) 0 * 256 ^ j := by
    apply List.map_congr_left
    intro j _
    simp only [Function.comp_apply, show 2 * j / 2 = j by omega]
  have e2 : (List.range 32).map ((fun i => e.getD i 0 * 256 ^ (i / 2)) ∘ fun j => 2 * j + 1) = (List.range 32).map fun j => e.getD (2 * j + 1) 0 * 256 ^ j := by
    apply List.map_congr_left
    intro j _
    simp only [Function.comp_apply, show (2 * j + 1) / 2 = j by omega]
  rw [e1, e2]
  simp only [← two_smul ℤ, smul_smul, ← add_smul]
  congr 1
  ring

end Verif.Ed
