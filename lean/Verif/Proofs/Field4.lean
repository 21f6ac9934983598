import Verif.Proofs.Field3
namespace Verif.Limb
set_option maxRecDepth 100000

/-! ### Powers -/

/-- `t` is within bounds and represents the `n`th power of what `z` represents. -/
def PowOf (z : Fe) (n : Nat) (t : Fe) : Prop := t.within 330 ∧ Cong P25519 t.val (z.val ^ n)

theorem PowOf.self {z : Fe} (hz : z.within 330) : PowOf z 1 z := ⟨hz, Cong.of_eq (by rw [Int.pow_succ, Int.pow_zero, Int.one_mul])⟩

theorem PowOf.mul {z t u : Fe} {n m : Nat} (h : PowOf z n t) (h' : PowOf z m u) : PowOf z (n + m) (feMul t u) := by
  obtain ⟨-, hw, hc⟩ := feMul_all t u h.1 h'.1
  refine ⟨within_mono hw (by omega), hc.trans ?_⟩
  rw [Int.pow_add]
  exact (h.2.mul_right _).trans (h'.2.mul_left _)

theorem PowOf.sq {z t : Fe} {n : Nat} (h : PowOf z n t) : PowOf z (n + n) (feSquare t) := by
  obtain ⟨-, hw, hc⟩ := feSquare_all t h.1
  refine ⟨within_mono hw (by omega), hc.trans ?_⟩
  rw [Int.pow_add]
  exact (h.2.mul_right _).trans (h.2.mul_left _)

theorem PowOf.sqN {z : Fe} : ∀ (k : Nat) {n : Nat} {t : Fe}, PowOf z n t → PowOf z (n * 2 ^ k) (sqN k t)
  | 0, n, t, h => by simpa [Limb.sqN] using h
  | k + 1, n, t, h => by
    have := PowOf.sqN k h.sq
    rw [show n * 2 ^ (k + 1) = (n + n) * 2 ^ k by rw [Nat.pow_succ]; grind]
    exact this

theorem feInvert_pow (z : Fe) (hz : z.within 330) : PowOf z (2 ^ 255 - 21) (feInvert z) ∧ (feInvert z).within 101 := by
  have h0 := PowOf.self hz
  have t0 := h0.sq
  have t1 := t0.sq.sqN 1
  have t1 := h0.mul t1
  have t0 := t0.mul t1
  have t2 := t0.sq
  have t1 := t1.mul t2
  have t2 := t1.sq.sqN 4
  have t1 := t2.mul t1
  have t2 := t1.sq.sqN 9
  have t2 := t2.mul t1
  have t3 := t2.sq.sqN 19
  have t2 := t3.mul t2
  have t2 := t2.sq.sqN 9
  have t1 := t2.mul t1
  have t2 := t1.sq.sqN 49
  have t2 := t2.mul t1
  have t3 := t2.sq.sqN 99
  have t2 := t3.mul t2
  have t2 := t2.sq.sqN 49
  have t1 := t2.mul t1
  have t1 := t1.sq.sqN 4
  have r := t1.mul t0
  exact ⟨r, (feMul_all _ _ t1.1 t0.1).2.1⟩

theorem fePow22523_pow (z : Fe) (hz : z.within 330) :
    PowOf z (2 ^ 252 - 3) (fePow22523 z) ∧ (fePow22523 z).within 101 := by
  have h0 := PowOf.self hz
  have t0 := h0.sq.sqN 0
  have t1 := t0.sq.sqN 1
  have t1 := h0.mul t1
  have t0 := t0.mul t1
  have t0 := t0.sq.sqN 0
  have t0 := t1.mul t0
  have t1 := t0.sq.sqN 4
  have t0 := t1.mul t0
  have t1 := t0.sq.sqN 9
  have t1 := t1.mul t0
  have t2 := t1.sq.sqN 19
  have t1 := t2.mul t1
  have t1 := t1.sq.sqN 9
  have t0 := t1.mul t0
  have t1 := t0.sq.sqN 49
  have t1 := t1.mul t0
  have t2 := t1.sq.sqN 99
  have t1 := t2.mul t1
  have t1 := t1.sq.sqN 49
  have t0 := t1.mul t0
  have t0 := t0.sq.sqN 1
  have r := t0.mul h0
  exact ⟨r, (feMul_all _ _ t0.1 h0.1).2.1⟩

/-! ### Tests on elements -/

theorem leVal_mod2 (l : List Int) : leVal l % 2 = l.headD 0 % 2 := by
  cases l with
  | nil => rfl
  | cons b l => simp only [leVal, List.headD_cons]; omega

theorem feIsNegative_eq (f : Fe) (hf : f.within 330) : feIsNegative f = f.val % P25519 % 2 := by
  obtain ⟨-, -, -, h, -⟩ := feToBytes_all f hf
  rw [← h, leVal_mod2]
  rfl

theorem leVal_zero : ∀ (l : List Int), areBytes l → (leVal l = 0 ↔ ∀ b ∈ l, b = 0)
  | [], _ => by simp [leVal]
  | b :: l, h => by
    have hb := h b (List.mem_cons_self ..)
    have hl : areBytes l := fun c hc => h c (List.mem_cons_of_mem _ hc)
    have ih := leVal_zero l hl
    have hn : 0 ≤ leVal l := by
      clear ih h hb
      induction l with
      | nil => simp [leVal]
      | cons c l ih =>
        have := hl c (List.mem_cons_self ..)
        have := ih fun c hc => hl c (List.mem_cons_of_mem _ hc)
        simp only [leVal]; omega
    rw [List.forall_mem_cons, ← ih]
    simp only [leVal]
    omega

theorem foldl_or_zero : ∀ (l : List Int) (x : UInt8), areBytes l →
    (l.foldl (fun x b => x ||| UInt8.ofInt b) x = 0 ↔ x = 0 ∧ ∀ b ∈ l, b = 0)
  | [], x, _ => by simp
  | b :: l, x, h => by
    have hb := h b (List.mem_cons_self ..)
    have hl : areBytes l := fun c hc => h c (List.mem_cons_of_mem _ hc)
    simp only [List.foldl_cons]
    rw [foldl_or_zero l _ hl, List.forall_mem_cons]
    have : (x ||| UInt8.ofInt b = 0) ↔ x = 0 ∧ b = 0 := by
      rw [UInt8.or_eq_zero_iff]
      have : UInt8.ofInt b = 0 ↔ b = 0 := by
        constructor
        · intro hz
          have := congrArg UInt8.toNat hz
          rw [UInt8.ofInt, UInt8.toNat_ofNat'] at this
          have h0 : (0 : UInt8).toNat = 0 := rfl
          rw [h0] at this
          omega
        · rintro rfl; rfl
      rw [this]
    rw [this, and_assoc]

/-- The final bit folding yields 1 exactly on non-zero bytes. -/
theorem fold_bits (x : UInt8) :
    ((let y := x ||| (x >>> 4); let y := y ||| (y >>> 2); let y := y ||| (y >>> 1); (y &&& 1).toNat) : Nat)
      = if x = 0 then 0 else 1 := by
  have key : ∀ n : Fin 256, ((let y := UInt8.ofNat n.val ||| (UInt8.ofNat n.val >>> 4); let y := y ||| (y >>> 2)
      let y := y ||| (y >>> 1); (y &&& 1).toNat) : Nat) = if UInt8.ofNat n.val = 0 then 0 else 1 := by decide +kernel
  have := key ⟨x.toNat, UInt8.toNat_lt x⟩
  rwa [UInt8.ofNat_toNat] at this

theorem feIsNonZero_eq (f : Fe) (hf : f.within 330) :
    feIsNonZero f = if f.val % P25519 = 0 then 0 else 1 := by
  obtain ⟨-, -, hb, h, -⟩ := feToBytes_all f hf
  unfold feIsNonZero
  have := fold_bits ((feToBytes f).1.foldl (fun x b => x ||| UInt8.ofInt b) 0)
  simp only at this ⊢
  rw [this]
  have h0 := foldl_or_zero (feToBytes f).1 0 hb
  rw [← leVal_zero _ hb, h] at h0
  simp only [true_and] at h0
  by_cases hz : f.val % P25519 = 0
  · rw [if_pos hz, if_pos (h0.2 hz)]; rfl
  · rw [if_neg hz, if_neg (fun e => hz (h0.1 e))]; rfl

/-! ### Conditional move -/

theorem toInt_ofInt32 (x : Int) (h : Wd.w32.fits x) : (BitVec.ofInt 32 x).toInt = x := by
  rw [BitVec.toInt_ofInt]
  exact wrap_id .w32 x h.1 h.2

theorem cmov32_zero (f g : Int) (hf : Wd.w32.fits f) : cmov32 f g 0 = f := by
  unfold cmov32
  simp only
  rw [show BitVec.ofInt 32 (-0) = 0#32 from rfl, BitVec.zero_and, BitVec.xor_zero, toInt_ofInt32 f hf]

theorem cmov32_one (f g : Int) (hg : Wd.w32.fits g) : cmov32 f g 1 = g := by
  unfold cmov32
  simp only
  rw [show BitVec.ofInt 32 (-1) = BitVec.allOnes 32 from by decide, BitVec.allOnes_and, ← BitVec.xor_assoc,
    BitVec.xor_self, BitVec.zero_xor, toInt_ofInt32 g hg]

end Verif.Limb
