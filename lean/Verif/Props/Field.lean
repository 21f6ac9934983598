import Verif.Proofs.Field4
import Verif.Proofs.Prime
import Mathlib.FieldTheory.Finite.Basic
/-
C43: field arithmetic.  `Fe.val` is the integer a limb vector stands for, `Fe.within c` the documented bounds
(c = 110: 1.1*2^25, 1.1*2^24, …; c = 330: 1.65*2^26, …), `P25519 = 2^255 - 19`; all from Spec/Field.lean.
`safeRun prog env` says that no intermediate result of the machine arithmetic leaves its 32- or 64-bit range.
-/
namespace Verif.Limb

/-- A field element with limbs near both ends of the documented range, used below to meet every hypothesis. -/
def feWide : Fe := Fe.of [110000000, -55000000, -110000000, 55000000, 110729625, -55364812, 7, 55364812, -110729625, -1]

theorem feWide_within : feWide.within 330 := by
  apply fin10 <;> decide

/-- FeMul: correct product, reduced limbs, no overflow. -/
theorem C43_mul (f g : Fe) (hf : f.within 330) (hg : g.within 330) :
    safeRun (feMulP ++ feCombineP) (place 0 f (place 10 g zeroEnv)) ∧ (feMul f g).within 101 ∧
      (feMul f g).val % P25519 = f.val * g.val % P25519 := by
  obtain ⟨h1, h2, h3⟩ := feMul_all f g hf hg
  exact ⟨h1, h2, cong_mod h3⟩

/-- FeSquare. -/
theorem C43_square (f : Fe) (hf : f.within 330) :
    safeRun (feSquareP ++ feCombineP) (place 0 f zeroEnv) ∧ (feSquare f).within 101 ∧
      (feSquare f).val % P25519 = f.val * f.val % P25519 := by
  obtain ⟨h1, h2, h3⟩ := feSquare_all f hf
  exact ⟨h1, h2, cong_mod h3⟩

/-- FeSquare2. -/
theorem C43_square2 (f : Fe) (hf : f.within 330) :
    safeRun (feSquareP ++ (feDoubleP ++ feCombineP)) (place 0 f zeroEnv) ∧ (feSquare2 f).within 101 ∧
      (feSquare2 f).val % P25519 = 2 * (f.val * f.val) % P25519 := by
  obtain ⟨h1, h2, h3⟩ := feSquare2_all f hf
  exact ⟨h1, h2, cong_mod h3⟩

/-- FeAdd: exact, and the bounds add up. -/
theorem C43_add (a b : Int) (f g : Fe) (hf : f.within a) (hg : g.within b) (ha : a ≤ 3000) (hb : b ≤ 3000) :
    safeRun feAddP (place 0 f (place 10 g zeroEnv)) ∧ (feAdd f g).within (a + b) ∧ (feAdd f g).val = f.val + g.val :=
  feAdd_all f g hf hg ha hb

/-- FeSub. -/
theorem C43_sub (a b : Int) (f g : Fe) (hf : f.within a) (hg : g.within b) (ha : a ≤ 3000) (hb : b ≤ 3000) :
    safeRun feSubP (place 0 f (place 10 g zeroEnv)) ∧ (feSub f g).within (a + b) ∧ (feSub f g).val = f.val - g.val :=
  feSub_all f g hf hg ha hb

/-- FeNeg. -/
theorem C43_neg (a : Int) (f : Fe) (hf : f.within a) (ha : a ≤ 3000) :
    safeRun feNegP (place 0 f zeroEnv) ∧ (feNeg f).within a ∧ (feNeg f).val = - f.val :=
  feNeg_all f hf ha

/-- The documented bounds compose: sums and differences of two reduced elements (1.1) are legal factors (1.65). -/
theorem C43_compose (f g h : Fe) (hf : f.within 110) (hg : g.within 110) (hh : h.within 110) :
    (feMul (feAdd f g) (feSub g h)).val % P25519 = (f.val + g.val) * (g.val - h.val) % P25519 ∧
      (feMul (feAdd f g) (feSub g h)).within 110 := by
  obtain ⟨-, a1, a2⟩ := C43_add 110 110 f g hf hg (by decide) (by decide)
  obtain ⟨-, b1, b2⟩ := C43_sub 110 110 g h hg hh (by decide) (by decide)
  obtain ⟨-, c1, c2⟩ := C43_mul _ _ (within_mono a1 (by decide)) (within_mono b1 (by decide))
  rw [a2, b2] at c2
  exact ⟨c2, within_mono c1 (by decide)⟩

/-- FeZero and FeOne. -/
theorem C43_constants : feZero.val = 0 ∧ feOne.val = 1 ∧ feZero.within 0 ∧ feOne.within 1 :=
  ⟨by decide, by decide, by apply fin10 <;> decide, by apply fin10 <;> decide⟩

/-- FeFromBytes: the little-endian number without its top bit; every 32-byte string is accepted. -/
theorem C43_from_bytes (s : List Int) (hl : s.length = 32) (hb : areBytes s) :
    safeRun (feFromBytesP ++ feCombineP) (placeL 0 s zeroEnv) ∧ (feFromBytes s).within 101 ∧
      (feFromBytes s).val % P25519 = leVal s % 2 ^ 255 % P25519 := by
  obtain ⟨h1, h2, h3⟩ := feFromBytes_all s hl hb
  exact ⟨h1, h2, cong_mod h3⟩

/-- FeToBytes: 32 bytes, the unique representative below 2^255-19. -/
theorem C43_to_bytes (h : Fe) (hh : h.within 330) :
    safeRun (feToBytesQ ++ feToBytesC) (place 0 h zeroEnv) ∧ (feToBytes h).1.length = 32 ∧ areBytes (feToBytes h).1 ∧
      leVal (feToBytes h).1 = h.val % P25519 := by
  obtain ⟨h1, h2, h3, h4, -⟩ := feToBytes_all h hh
  exact ⟨h1, h2, h3, h4⟩

/-- Little-endian byte strings of equal length with equal value are equal. -/
theorem leVal_inj : ∀ (l m : List Int), areBytes l → areBytes m → l.length = m.length → leVal l = leVal m → l = m
  | [], [], _, _, _, _ => rfl
  | [], _ :: _, _, _, h, _ => by cases h
  | _ :: _, [], _, _, h, _ => by cases h
  | a :: l, b :: m, hl, hm, h, e => by
    have ha := hl a (List.mem_cons_self ..)
    have hb := hm b (List.mem_cons_self ..)
    simp only [leVal] at e
    have e1 : a = b := by omega
    have e2 : leVal l = leVal m := by omega
    rw [e1, leVal_inj l m (fun x hx => hl x (List.mem_cons_of_mem _ hx)) (fun x hx => hm x (List.mem_cons_of_mem _ hx))
      (by simpa using h) e2]

/-- Encoding is canonical: two limb vectors have the same bytes exactly when they stand for the same field element. -/
theorem C43_canonical (f g : Fe) (hf : f.within 330) (hg : g.within 330) :
    (feToBytes f).1 = (feToBytes g).1 ↔ f.val % P25519 = g.val % P25519 := by
  obtain ⟨-, f2, f3, f4, -⟩ := feToBytes_all f hf
  obtain ⟨-, g2, g3, g4, -⟩ := feToBytes_all g hg
  constructor
  · intro h; rw [← f4, ← g4, h]
  · intro h; exact leVal_inj _ _ f3 g3 (f2.trans g2.symm) (by rw [f4, g4, h])

/-- FeToBytes also overwrites the limbs of its argument, but not the value they stand for, and leaves them small enough
for any further operation. -/
theorem C43_to_bytes_keeps_value (h : Fe) (hh : h.within 330) :
    (feToBytes h).2.val % P25519 = h.val % P25519 ∧ (feToBytes h).2.within 200 := by
  obtain ⟨-, -, -, -, h5, h6⟩ := feToBytes_all h hh
  exact ⟨by rw [h5, Int.emod_emod], h6⟩

/-- Decoding then encoding a canonical string (value below 2^255-19) returns that very string. -/
theorem C43_roundtrip (s : List Int) (hl : s.length = 32) (hb : areBytes s) (hc : leVal s < P25519) :
    (feToBytes (feFromBytes s)).1 = s := by
  obtain ⟨-, h2, h3⟩ := C43_from_bytes s hl hb
  obtain ⟨-, g2, g3, g4⟩ := C43_to_bytes _ (within_mono h2 (by decide))
  refine leVal_inj _ _ g3 hb (g2.trans hl.symm) ?_
  have h0 : 0 ≤ leVal s := by
    clear hl hc h2 h3 g2 g3 g4
    induction s with
    | nil => exact Int.le_refl _
    | cons b l ih =>
      have h1 := hb b (List.mem_cons_self ..)
      have h2 := ih (fun c hc => hb c (List.mem_cons_of_mem _ hc))
      simp only [leVal]; omega
  have hP : (P25519 : Int) < 2 ^ 255 := by decide
  rw [g4, h3, Int.emod_eq_of_lt (a := leVal s) (b := 2 ^ 255) h0 (by omega), Int.emod_eq_of_lt h0 hc]

/-- FeInvert: the multiplicative inverse of every element that is not zero modulo 2^255-19 … -/
theorem C43_invert (z : Fe) (hz : z.within 330) (h0 : z.val % P25519 ≠ 0) :
    (feInvert z).within 101 ∧ (feInvert z).val * z.val % P25519 = 1 := by
  obtain ⟨⟨-, h1⟩, h2⟩ := feInvert_pow z hz
  refine ⟨h2, ?_⟩
  have : _root_.Fact (Nat.Prime P25519) := ⟨prime_P25519⟩
  have hne : ((z.val : Int) : ZMod P25519) ≠ 0 := by
    intro h
    exact h0 (Int.emod_eq_zero_of_dvd ((ZMod.intCast_zmod_eq_zero_iff_dvd _ _).1 h))
  have hf := ZMod.pow_card_sub_one_eq_one hne
  have hc : (((feInvert z).val * z.val : Int) : ZMod P25519) = ((1 : Int) : ZMod P25519) := by
    have e : ((feInvert z).val : ZMod P25519) = ((z.val ^ (2 ^ 255 - 21) : Int) : ZMod P25519) := by
      rw [← sub_eq_zero, ← Int.cast_sub, ZMod.intCast_zmod_eq_zero_iff_dvd]
      exact h1
    rw [Int.cast_mul, e, Int.cast_pow, ← pow_succ, Int.cast_one]
    exact hf
  rw [ZMod.intCast_eq_intCast_iff'] at hc
  exact hc.trans (by decide)

/-- … and zero for zero. -/
theorem C43_invert_zero (z : Fe) (hz : z.within 330) (h0 : z.val % P25519 = 0) : (feInvert z).val % P25519 = 0 := by
  obtain ⟨⟨-, h1⟩, -⟩ := feInvert_pow z hz
  rw [cong_mod h1]
  apply Int.emod_eq_zero_of_dvd
  exact dvd_pow (Int.dvd_of_emod_eq_zero h0) (by decide)

/-- The exponentiation used for square roots: `z^((p-5)/8)`. -/
theorem C43_pow22523 (z : Fe) (hz : z.within 330) :
    (fePow22523 z).within 101 ∧ (fePow22523 z).val % P25519 = z.val ^ ((P25519 - 5) / 8) % P25519 := by
  obtain ⟨⟨-, h1⟩, h2⟩ := fePow22523_pow z hz
  exact ⟨h2, cong_mod h1⟩

/-- FeIsNegative is the parity of the canonical representative, FeIsNonZero whether it is nonzero. -/
theorem C43_is_negative (f : Fe) (hf : f.within 330) : feIsNegative f = f.val % P25519 % 2 := feIsNegative_eq f hf
theorem C43_is_nonzero (f : Fe) (hf : f.within 330) :
    feIsNonZero f = if f.val % P25519 = 0 then 0 else 1 := feIsNonZero_eq f hf

/-- FeCMove replaces exactly when asked to. -/
theorem C43_cmove (f g : Fe) (hf : f.within 3000) (hg : g.within 3000) : feCMove f g 0 = f ∧ feCMove f g 1 = g := by
  constructor
  · funext i
    have := within_small hf i
    exact cmov32_zero _ _ (show (-2147483648 : Int) ≤ _ ∧ _ ≤ (2147483647 : Int) by omega)
  · funext i
    have := within_small hg i
    exact cmov32_one _ _ (show (-2147483648 : Int) ≤ _ ∧ _ ≤ (2147483647 : Int) by omega)

/-! The hypotheses are met by limbs at the edge of the documented range, and by an element not zero modulo p. -/
example : feWide.within 330 ∧ feWide.val % P25519 ≠ 0 := ⟨feWide_within, by decide +kernel⟩
example : (List.replicate 32 (255 : Int)).length = 32 ∧ areBytes (List.replicate 32 (255 : Int)) := by unfold areBytes; decide
example : leVal ((List.range 31).map (fun i => (i : Int) + 1) ++ [127]) < P25519 := by decide +kernel

end Verif.Limb
