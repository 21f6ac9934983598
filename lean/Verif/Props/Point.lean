import Verif.Proofs.Point
/-
C59: decoding and encoding of curve points (ecc/edwards25519).
-/
set_option linter.unusedSimpArgs false
set_option exponentiation.threshold 600
namespace Verif
open Verif.Ed Verif.Limb

/-- The end of FromBytes: the sign of x is selected. -/
def withSign (Y X : Fe) (t : Int) : ExtendedPoint :=
  ⟨if feIsNegative X ≠ t then feNeg (feToBytes X).2 else (feToBytes X).2, Y, feOne,
    feMul (if feIsNegative X ≠ t then feNeg (feToBytes X).2 else (feToBytes X).2) Y⟩

/-- FromBytes once the candidate root X for u/v has been computed. -/
def fromRoot (Y u v X : Fe) (t : Int) : Option ExtendedPoint :=
  if feIsNonZero (feSub (feMul (feSquare X) v) u) = 1 then
    if feIsNonZero (feAdd (feMul (feSquare X) v) u) = 1 then none
    else some (withSign Y (feToBytes (feMul X feSqrtM1)).2 t)
  else some (withSign Y X t)

def candidate (u v : Fe) : Fe :=
  feMul (feMul (fePow22523 (feMul (feMul (feSquare (feMul (feSquare v) v)) v) u)) (feMul (feSquare v) v)) u

theorem fromBytes_eq (s : List Int) : ExtendedPoint.fromBytes s =
    fromRoot (feFromBytes s) (feSub (feSquare (feFromBytes s)) feOne) (feAdd (feMul (feSquare (feFromBytes s)) feD) feOne)
      (candidate (feSub (feSquare (feFromBytes s)) feOne) (feAdd (feMul (feSquare (feFromBytes s)) feD) feOne))
      (s.getD 31 0 / 128) := rfl

theorem fv_candidate {u v : Fe} (u2 : u.within 102) (v2 : v.within 102) :
    fv (candidate u v) = (fv u * fv v ^ 7) ^ ((P25519 - 5) / 8) * fv v ^ 3 * fv u ∧ (candidate u v).within 101 := by
  have w : ∀ {f : Fe} {c : Int}, f.within c → c ≤ 330 → f.within 330 := fun h h' => within_mono h h'
  obtain ⟨c1, c2⟩ := fv_square (w v2 (by decide))
  obtain ⟨d1, d2⟩ := fv_mul (w c2 (by decide)) (w v2 (by decide))
  obtain ⟨e1, e2⟩ := fv_square (w d2 (by decide))
  obtain ⟨f1, f2⟩ := fv_mul (w e2 (by decide)) (w v2 (by decide))
  obtain ⟨g1, g2⟩ := fv_mul (w f2 (by decide)) (w u2 (by decide))
  obtain ⟨h1, h2⟩ := fv_pow22523 (w g2 (by decide))
  obtain ⟨i1, i2⟩ := fv_mul (w h2 (by decide)) (w d2 (by decide))
  obtain ⟨j1, j2⟩ := fv_mul (w i2 (by decide)) (w u2 (by decide))
  refine ⟨?_, j2⟩
  have a1 : (fv v ^ 2 * fv v) ^ 2 * fv v * fv u = fv u * fv v ^ 7 := by ring
  have a2 : fv v ^ 2 * fv v = fv v ^ 3 := by ring
  unfold candidate
  rw [j1, i1, h1, g1, f1, e1, d1, c1, a1, a2]

/-- Whatever square root is found, the end of the function selects its sign. -/
theorem withSign_spec {Y X : Fe} {y : F} {s : Nat} (b1 : Y.within 101) (hY : fv Y = y) (ht : (s : Int) = 0 ∨ (s : Int) = 1)
    (hw : X.within 200) (hr : (dE * y ^ 2 + 1) * fv X ^ 2 = y ^ 2 - 1) :
    ∃ P : Pt, WRep (withSign Y X s) P ∧ P.y = y ∧ (P.x = 0 ∨ P.x.val % 2 = s) := by
  have w : ∀ {f : Fe} {c : Int}, f.within c → c ≤ 330 → f.within 330 := fun h h' => within_mono h h'
  obtain ⟨q1, q2, q3⟩ := sign_select hw ht
  unfold withSign
  generalize (if feIsNegative X ≠ (s : Int) then feNeg (feToBytes X).2 else (feToBytes X).2) = X1 at q1 q2 q3 ⊢
  obtain ⟨o1, o2⟩ := fv_one
  have hsq : fv X1 ^ 2 = fv X ^ 2 := by rcases q1 with q | q <;> rw [q]; ring
  rw [← hsq] at hr
  obtain ⟨r1, r2⟩ := fv_mul (w q2 (by decide)) (w b1 (by decide))
  refine ⟨⟨fv X1, y, (curve_eq_iff _ _).2 hr⟩, ⟨w q2 (by decide), w b1 (by decide), w o2 (by decide), w r2 (by decide), ?_⟩, rfl, ?_⟩
  · exact ⟨by show fv feOne ≠ 0; rw [o1]; exact one_ne_zero, by show fv X1 = fv X1 * fv feOne; rw [o1, mul_one],
      by show fv Y = y * fv feOne; rw [o1, mul_one, hY], by show fv (feMul X1 Y) = fv X1 * y * fv feOne; rw [r1, o1, mul_one, hY]⟩
  · rcases q3 with q | q
    · exact Or.inl q
    · right; exact_mod_cast q

theorem fromRoot_spec {Y u v X : Fe} {y : F} {s : Nat} (b1 : Y.within 101) (hY : fv Y = y) (ht : (s : Int) = 0 ∨ (s : Int) = 1)
    (u2 : u.within 102) (v2 : v.within 102) (j2 : X.within 101) (u1 : fv u = y ^ 2 - 1) (v1 : fv v = dE * y ^ 2 + 1)
    (hX : fv X = (fv u * fv v ^ 7) ^ ((P25519 - 5) / 8) * fv v ^ 3 * fv u) :
    (∀ p, fromRoot Y u v X s = some p → ∃ P : Pt, WRep p P ∧ P.y = y ∧ (P.x = 0 ∨ P.x.val % 2 = s)) ∧
      (fromRoot Y u v X s = none → ¬ ∃ P : Pt, P.y = y) := by
  have w : ∀ {f : Fe} {c : Int}, f.within c → c ≤ 330 → f.within 330 := fun h h' => within_mono h h'
  obtain ⟨k1, k2⟩ := fv_square (w j2 (by decide))
  obtain ⟨l1, l2⟩ := fv_mul (w k2 (by decide)) (w v2 (by decide))
  obtain ⟨m1, m2⟩ := fv_sub l2 u2 (by decide) (by decide)
  obtain ⟨n1, n2⟩ := fv_add l2 u2 (by decide) (by decide)
  have z1 := isNonZero_iff (w m2 (by decide))
  have z2 := isNonZero_iff (w n2 (by decide))
  rw [m1, l1, k1] at z1
  rw [n1, l1, k1] at z2
  have hvne : fv v ≠ 0 := by rw [v1]; exact v_ne y
  have hroot := root_spec (fv u) (fv v) (fv X) hX hvne
  have hpt : (∃ P : Pt, P.y = y) → ∃ x0, fv v * x0 ^ 2 = fv u := by
    rintro ⟨P, hP⟩
    have := (curve_eq_iff P.x P.y).1 P.on
    rw [hP] at this
    exact ⟨P.x, by rw [v1, u1]; exact this⟩
  obtain ⟨s1, s2⟩ := fv_mul (w j2 (by decide)) (w feSqrtM1_within (by decide))
  obtain ⟨t1, t2⟩ := fv_toBytes2 (w s2 (by decide))
  have w1 := withSign_spec (X := X) b1 hY ht (within_mono j2 (by decide))
  have w2 := withSign_spec (X := (feToBytes (feMul X feSqrtM1)).2) b1 hY ht t2
  rw [← v1, ← u1] at w1 w2
  rw [t1, s1, mul_pow, fv_sqrtM1] at w2
  unfold fromRoot
  generalize feIsNonZero (feSub (feMul (feSquare X) v) u) = c1 at z1 ⊢
  generalize feIsNonZero (feAdd (feMul (feSquare X) v) u) = c2 at z2 ⊢
  generalize withSign Y (feToBytes (feMul X feSqrtM1)).2 s = p2 at w2 ⊢
  generalize withSign Y X s = p1 at w1 ⊢
  by_cases hc1 : c1 = 1
  · rw [if_pos hc1]
    have n1 : fv v * fv X ^ 2 ≠ fv u := fun e => z1.1 hc1 (by rw [← e]; ring)
    by_cases hc2 : c2 = 1
    · rw [if_pos hc2]
      have n2 : fv v * fv X ^ 2 ≠ -fv u := fun e => z2.1 hc2 (by linear_combination e)
      refine ⟨fun p h => by simp at h, fun _ hP => ?_⟩
      rcases hroot.1 (hpt hP) with h | h
      · exact n1 h
      · exact n2 h
    · rw [if_neg hc2]
      have e2 : fv X ^ 2 * fv v + fv u = 0 := by
        by_contra h
        exact hc2 (z2.2 h)
      refine ⟨fun p h => ?_, fun h => by simp at h⟩
      cases h
      exact w2 (by linear_combination -e2)
  · rw [if_neg hc1]
    have e1 : fv X ^ 2 * fv v - fv u = 0 := by
      by_contra h
      exact hc1 (z1.2 h)
    refine ⟨fun p h => ?_, fun h => by simp at h⟩
    cases h
    exact w1 (by linear_combination e1)

theorem fromBytes_spec (b : Key32) (y : F) (s : Nat) (ey : y = ((leNat b.bytes % 2 ^ 255 : Nat) : F)) (es : s = leNat b.bytes / 2 ^ 255) :
    (∀ p, ExtendedPoint.fromBytes (ints b.bytes) = some p → ∃ P : Pt, WRep p P ∧ P.y = y ∧ (P.x = 0 ∨ P.x.val % 2 = s)) ∧
      (ExtendedPoint.fromBytes (ints b.bytes) = none → ¬ ∃ P : Pt, P.y = y) := by
  have w : ∀ {f : Fe} {c : Int}, f.within c → c ≤ 330 → f.within 330 := fun h h' => within_mono h h'
  obtain ⟨-, b1, b2⟩ := C43_from_bytes (ints b.bytes) (by rw [ints_length, b.len]) (ints_areBytes _)
  have hY : fv (feFromBytes (ints b.bytes)) = y := by
    rw [leVal_ints] at b2
    have hm : (leNat b.bytes : Int) % 2 ^ 255 = ((leNat b.bytes % 2 ^ 255 : Nat) : Int) := by
      generalize leNat b.bytes = n
      omega
    rw [hm] at b2
    rw [fv_congr b2, Int.cast_natCast, ey]
  have ht : (ints b.bytes).getD 31 0 / 128 = (s : Int) := by
    have h31 : 31 < b.bytes.length := by rw [b.len]; decide
    have e : (ints b.bytes).getD 31 0 = ((b.bytes.getD 31 0).toNat : Int) := by
      simp [ints, List.getD_eq_getElem?_getD, h31]
    have := top_bit b.len
    rw [e, es, ← this]
    omega
  have hs : s < 2 := by
    have h1 := leNat_lt b.bytes
    rw [b.len] at h1
    have h2 : (256 : Nat) ^ 32 = 2 ^ 255 * 2 := by norm_num
    rw [h2] at h1
    rw [es]
    exact Nat.div_lt_of_lt_mul h1
  have ht01 : (s : Int) = 0 ∨ (s : Int) = 1 := by clear * - hs; omega
  rw [fromBytes_eq, ht]
  generalize feFromBytes (ints b.bytes) = Y at b1 hY
  obtain ⟨o1, o2⟩ := fv_one
  obtain ⟨u01, u02⟩ := fv_square (w b1 (by decide))
  obtain ⟨v01, v02⟩ := fv_mul (w u02 (by decide)) (w feD_within (by decide))
  obtain ⟨u1, u2⟩ := fv_sub u02 o2 (by decide) (by decide)
  obtain ⟨v1, v2⟩ := fv_add v02 o2 (by decide) (by decide)
  rw [u01, o1, hY] at u1
  rw [v01, u01, fv_feD, o1, hY, mul_comm] at v1
  obtain ⟨x1, x2⟩ := fv_candidate u2 v2
  exact fromRoot_spec b1 hY ht01 u2 v2 x2 u1 v1 x1

/-- **C59 (decoding).** For every 32 bytes, with y the number they hold without the top bit (reduced modulo 2^255-19) and s the top bit: if `FromBytes`
succeeds, it returns a point of the curve with this y and with x of parity s (when x is not 0). -/
theorem C59_decode (b : Key32) (p : ExtendedPoint) (h : ExtendedPoint.fromBytes (ints b.bytes) = some p) :
    ∃ P : Pt, WRep p P ∧ P.y = ((leNat b.bytes % 2 ^ 255 : Nat) : F) ∧ (P.x = 0 ∨ P.x.val % 2 = leNat b.bytes / 2 ^ 255) :=
  (fromBytes_spec b _ _ rfl rfl).1 p h

/-- **C59 (decoding fails only when it must).** `FromBytes` fails exactly when no point of the curve has this y. -/
theorem C59_decode_fails (b : Key32) : ExtendedPoint.fromBytes (ints b.bytes) = none ↔
    ¬ ∃ P : Pt, P.y = ((leNat b.bytes % 2 ^ 255 : Nat) : F) := by
  obtain ⟨h1, h2⟩ := fromBytes_spec b _ _ rfl rfl
  refine ⟨h2, fun h => ?_⟩
  cases hf : ExtendedPoint.fromBytes (ints b.bytes) with
  | none => rfl
  | some p =>
    obtain ⟨P, -, hP, -⟩ := h1 p hf
    exact absurd ⟨P, hP⟩ h

/-- **C59 (encoding).** `ToBytes`, in extended and in projective coordinates, gives the standard encoding of the point represented. -/
theorem C59_encode {p : ExtendedPoint} {P : Pt} (h : WRep p P) : (toArr 32 p.toBytes).bytes = encodePoint P ∧
    (toArr 32 p.toProjective.toBytes).bytes = encodePoint P :=
  ⟨affine_toBytes h.bx h.bY h.bz h.rep.z h.rep.x h.rep.y, affine_toBytes h.bx h.bY h.bz h.rep.z h.rep.x h.rep.y⟩

/-- **C59 (round trip).** Decoding the encoding of any point succeeds, and encoding the result gives the same bytes. -/
theorem C59_roundtrip (P : Pt) (b : Key32) (hb : b.bytes = encodePoint P) :
    ∃ p, ExtendedPoint.fromBytes (ints b.bytes) = some p ∧ WRep p P ∧ (toArr 32 p.toBytes).bytes = b.bytes := by
  have hn : leNat b.bytes = P.y.val + 2 ^ 255 * (P.x.val % 2) := by rw [hb, leNat_encodePoint]
  have hyv : P.y.val < P25519 := ZMod.val_lt _
  have hp : P25519 < 2 ^ 255 := by decide
  have h1 : leNat b.bytes % 2 ^ 255 = P.y.val := by rw [hn]; omega
  have h2 : leNat b.bytes / 2 ^ 255 = P.x.val % 2 := by rw [hn]; omega
  obtain ⟨d1, d2⟩ := fromBytes_spec b P.y (P.x.val % 2) (by rw [h1, ZMod.natCast_zmod_val]) h2.symm
  cases hf : ExtendedPoint.fromBytes (ints b.bytes) with
  | none => exact absurd ⟨P, rfl⟩ (d2 hf)
  | some p =>
    obtain ⟨Q, hw, hy, hx⟩ := d1 p hf
    have : Q = P := point_of_y_sign hy hx (Or.inr rfl)
    subst this
    exact ⟨p, rfl, hw, by rw [(C59_encode hw).1, hb]⟩

/-- **C59 (accepted non-canonical encodings).** `FromBytes` does not check that its input is the encoding `ToBytes` would produce: y = 1 with the sign
bit set decodes to the neutral element. -/
theorem C59_noncanonical_accepted : ∃ (b : Key32) (p : ExtendedPoint), ExtendedPoint.fromBytes (ints b.bytes) = some p ∧
    (toArr 32 p.toBytes).bytes ≠ b.bytes := by
  obtain ⟨b, hn⟩ : ∃ b : Key32, leNat b.bytes = 1 + 2 ^ 255 := by
    refine ⟨⟨encodeYS 1 1, encodeYS_length _ _⟩, ?_⟩
    show leNat (encodeYS 1 1) = _
    rw [leNat_encodeYS _ (by decide)]
    have : (1 : F).val = 1 := ZMod.val_one _
    rw [this, Nat.mul_one]
  obtain ⟨d1, d2⟩ := fromBytes_spec b 1 1 (by rw [hn, show (1 + 2 ^ 255) % 2 ^ 255 = 1 by norm_num, Nat.cast_one])
    (by rw [hn]; norm_num)
  refine ⟨b, ?_⟩
  cases hf : ExtendedPoint.fromBytes (ints b.bytes) with
  | none => exact absurd ⟨0, zero_y⟩ (d2 hf)
  | some p =>
    obtain ⟨Q, hw, hy, -⟩ := d1 p hf
    have hQ : Q = 0 := by
      by_contra h
      exact y_ne_one h hy
    refine ⟨p, rfl, ?_⟩
    rw [(C59_encode hw).1, hQ]
    intro h
    have := congrArg leNat h
    rw [leNat_encodePoint, hn, zero_x, zero_y, ZMod.val_zero] at this
    have h1 : (1 : F).val = 1 := ZMod.val_one _
    rw [h1] at this
    omega

/-- **C59 (cached form).** `ToCached` holds y+x, y-x and 2dxy, all times Z. -/
theorem C59_cached {p : ExtendedPoint} {P : Pt} (h : WRep p P) :
    fv p.toCached.yPlusX = (P.y + P.x) * fv p.Z ∧ fv p.toCached.yMinusX = (P.y - P.x) * fv p.Z ∧ p.toCached.Z = p.Z ∧
      fv p.toCached.T2d = 2 * dE * P.x * P.y * fv p.Z := by
  obtain ⟨a1, -⟩ := fv_add h.bY h.bx (by decide) (by decide)
  obtain ⟨b1, -⟩ := fv_sub h.bY h.bx (by decide) (by decide)
  obtain ⟨c1, -⟩ := fv_mul h.bt (within_mono feD2_within (show (101 : Int) ≤ 330 by decide))
  refine ⟨?_, ?_, rfl, ?_⟩
  · show fv (feAdd p.Y p.X) = _
    rw [a1, h.rep.x, h.rep.y]; ring
  · show fv (feSub p.Y p.X) = _
    rw [b1, h.rep.x, h.rep.y]; ring
  · show fv (feMul p.T feD2) = _
    rw [c1, h.rep.t, fv_feD2]; ring

/-- Concrete case: the base point's encoding decodes, and the point represented is the base point. -/
example : ∃ p, ExtendedPoint.fromBytes (ints (encodePoint B)) = some p ∧ WRep p B :=
  let ⟨p, h1, h2, _⟩ := C59_roundtrip B ⟨encodePoint B, encodePoint_length _⟩ rfl
  ⟨p, h1, h2⟩

end Verif
