import Verif.Proofs.Group
import Verif.Proofs.Basic
import Verif.Props.Scalar
import Verif.Model.Sign
/-
Signatures: bytes and numbers, encodings of points.
-/
set_option linter.unusedSimpArgs false
set_option exponentiation.threshold 600
namespace Verif
open Verif.Ed Verif.Limb

theorem leNat_lt (b : Bytes) : leNat b < 256 ^ b.length := by
  induction b with
  | nil => simp [leNat]
  | cons x b ih =>
    have := x.toNat_lt
    simp only [leNat, List.length_cons, Nat.pow_succ]
    omega

theorem leNat_append (a b : Bytes) : leNat (a ++ b) = leNat a + 256 ^ a.length * leNat b := by
  induction a with
  | nil => simp [leNat]
  | cons x a ih => simp only [List.cons_append, leNat, ih, List.length_cons, Nat.pow_succ]; ring

@[simp] theorem leBytes_length (n v : Nat) : (leBytes n v).length = n := by
  induction n generalizing v with
  | zero => rfl
  | succ n ih => simp [leBytes, ih]

theorem leNat_leBytes (n v : Nat) : leNat (leBytes n v) = v % 256 ^ n := by
  induction n generalizing v with
  | zero => simp [leBytes, leNat, Nat.mod_one]
  | succ n ih =>
    have e : (UInt8.ofNat (v % 256)).toNat = v % 256 := by rw [UInt8.toNat_ofNat']; omega
    simp only [leBytes, leNat, ih, e]
    rw [Nat.pow_succ, Nat.mul_comm (256 ^ n) 256, Nat.mod_mul]

theorem leBytes_leNat (b : Bytes) : leBytes b.length (leNat b) = b := by
  induction b with
  | nil => rfl
  | cons x b ih =>
    have := x.toNat_lt
    simp only [List.length_cons, leNat, leBytes]
    rw [show (x.toNat + 256 * leNat b) / 256 = leNat b by omega, ih, show (x.toNat + 256 * leNat b) % 256 = x.toNat by omega]
    simp

theorem leNat_inj {a b : Bytes} (hl : a.length = b.length) (h : leNat a = leNat b) : a = b := by
  rw [← leBytes_leNat a, ← leBytes_leNat b, hl, h]

theorem leVal_ints (b : Bytes) : leVal (ints b) = (leNat b : Int) := by
  induction b with
  | nil => rfl
  | cons x b ih =>
    have e : leVal (ints (x :: b)) = (x.toNat : Int) + 256 * leVal (ints b) := rfl
    rw [e, ih]; simp only [leNat]; push_cast; ring

theorem ints_length (b : Bytes) : (ints b).length = b.length := by simp [ints]

theorem ints_areBytes (b : Bytes) : areBytes (ints b) := by
  intro v hv
  simp only [ints, List.mem_map] at hv
  obtain ⟨x, -, rfl⟩ := hv
  have := x.toNat_lt
  omega

theorem leNat_ofInts (l : List Int) (h : areBytes l) : (leNat (l.map UInt8.ofInt) : Int) = leVal l := by
  induction l with
  | nil => rfl
  | cons x l ih =>
    obtain ⟨h0, h1⟩ := h x (by simp)
    have e : (UInt8.ofInt x).toNat = x.toNat := by
      rw [UInt8.ofInt, UInt8.toNat_ofNat']
      omega
    simp only [List.map_cons, leNat, leVal, e]
    push_cast
    rw [ih (fun b hb => h b (List.mem_cons_of_mem _ hb))]
    omega

theorem toArr_bytes {n : Nat} {l : List Int} (h : l.length = n) : (toArr n l).bytes = l.map UInt8.ofInt :=
  copyInto_self (by simpa using h)

/-- Result arrays of the limb code carry the value computed. -/
theorem leNat_toArr {n : Nat} {l : List Int} (hl : l.length = n) (hb : areBytes l) : (leNat (toArr n l).bytes : Int) = leVal l := by
  rw [toArr_bytes hl, leNat_ofInts l hb]

/-! ### The top bit of the last byte -/

theorem snoc_of_length {n : Nat} {b : Bytes} (h : b.length = n + 1) : ∃ l x, l.length = n ∧ b = l ++ [x] := by
  have hne : b ≠ [] := by intro e; simp [e] at h
  exact ⟨b.dropLast, b.getLast hne, by simp [h], (List.dropLast_append_getLast hne).symm⟩

theorem modify_snoc (l : Bytes) (x : UInt8) (f : UInt8 → UInt8) {n : Nat} (h : l.length = n) :
    (l ++ [x]).modify n f = l ++ [f x] := by
  subst h
  apply List.ext_getElem?
  intro i
  rw [List.getElem?_modify]
  by_cases hi : i = l.length
  · subst hi; simp
  · have hi' : ¬ l.length = i := fun e => hi e.symm
    simp only [hi', if_false]
    rcases Nat.lt_or_gt_of_ne hi with h | h
    · simp [List.getElem?_append, h]
    · rw [List.getElem?_eq_none (by simp; omega), List.getElem?_eq_none (by simp; omega)]; rfl

theorem getD_snoc (l : Bytes) (x : UInt8) {n : Nat} (h : l.length = n) : (l ++ [x]).getD n 0 = x := by
  subst h; simp

theorem leNat_snoc (l : Bytes) (x : UInt8) : leNat (l ++ [x]) = leNat l + 256 ^ l.length * x.toNat := by
  rw [leNat_append]; simp [leNat]

theorem u8_and7f (b : UInt8) : (b &&& 0x7F).toNat = b.toNat % 128 := by
  revert b; exact forall_u8 (by decide +kernel)
theorem u8_and80 (b : UInt8) : (b &&& 0x80).toNat = 128 * (b.toNat / 128) := by
  revert b; exact forall_u8 (by decide +kernel)
theorem u8_or80 (b c : UInt8) (h : b.toNat < 128) : (b ||| (c &&& 0x80)).toNat = b.toNat + 128 * (c.toNat / 128) := by
  have e : c &&& 0x80 = if c.toNat / 128 = 0 then 0 else 0x80 := by
    revert c; exact forall_u8 (by decide +kernel)
  have hc := c.toNat_lt
  rw [e]
  split
  · rename_i h0; simp [h0]
  · have : c.toNat / 128 = 1 := by omega
    rw [this]
    clear e
    revert b; exact forall_u8 (by decide +kernel)

/-- Clearing the top bit of the 32-byte number. -/
theorem leNat_clear_top {b : Bytes} (h : b.length = 32) : leNat (b.modify 31 (· &&& 0x7F)) = leNat b % 2 ^ 255 := by
  obtain ⟨l, x, hl, rfl⟩ := snoc_of_length (n := 31) h
  rw [modify_snoc _ _ _ hl, leNat_snoc, leNat_snoc, hl, u8_and7f]
  have := leNat_lt l
  rw [hl] at this
  omega

/-- Or-ing a top bit into a 32-byte number below 2^255. -/
theorem leNat_or_top {b : Bytes} (h : b.length = 32) (c : UInt8) (hb : leNat b < 2 ^ 255) :
    leNat (b.modify 31 (· ||| (c &&& 0x80))) = leNat b + 2 ^ 255 * (c.toNat / 128) := by
  obtain ⟨l, x, hl, rfl⟩ := snoc_of_length (n := 31) h
  rw [leNat_snoc, hl] at hb
  rw [modify_snoc _ _ _ hl, leNat_snoc, leNat_snoc, hl, u8_or80 x c (by omega)]
  ring

/-- The top bit of a 32-byte number. -/
theorem top_bit {b : Bytes} (h : b.length = 32) : (b.getD 31 0).toNat / 128 = leNat b / 2 ^ 255 := by
  obtain ⟨l, x, hl, rfl⟩ := snoc_of_length (n := 31) h
  rw [getD_snoc _ _ hl, leNat_snoc, hl]
  have := leNat_lt l
  rw [hl] at this
  omega

theorem modify_append_right (a b : Bytes) (n k : Nat) (f : UInt8 → UInt8) (h : a.length = n) :
    (a ++ b).modify (n + k) f = a ++ b.modify k f := by
  subst h
  apply List.ext_getElem?
  intro i
  rw [List.getElem?_modify]
  rcases Nat.lt_or_ge i a.length with hi | hi
  · rw [List.getElem?_append_left hi, List.getElem?_append_left hi]
    have h' : ¬ a.length + k = i := by omega
    simp [h']
  · rw [List.getElem?_append_right hi, List.getElem?_append_right hi, List.getElem?_modify]
    have e : (a.length + k = i) = (k = i - a.length) := by apply propext; omega
    simp only [e]

theorem getD_append_right' (a b : Bytes) (n k : Nat) (h : a.length = n) : (a ++ b).getD (n + k) 0 = b.getD k 0 := by
  subst h; simp [List.getD_eq_getElem?_getD, List.getElem?_append_right]

theorem split_sig (s : Arr 64) : ∃ R S : Arr 32, s.bytes = R.bytes ++ S.bytes :=
  ⟨⟨s.bytes.take 32, by simp [s.len]⟩, ⟨s.bytes.drop 32, by simp [s.len]⟩, by simp⟩

/-! ### Encodings of points -/

theorem fv_val (f : Fe) : ((fv f).val : Int) = f.val % P25519 := ZMod.val_intCast _

theorem fv_invert {z : Fe} (hz : z.within 330) : fv (feInvert z) = (fv z)⁻¹ ∧ (feInvert z).within 101 := by
  by_cases h0 : z.val % P25519 = 0
  · have e0 : fv z = 0 := by
      have := fv_congr (f := z) (n := 0) (by rw [h0]; rfl)
      simpa using this
    refine ⟨?_, (feInvert_pow z hz).2⟩
    rw [e0, inv_zero]
    have := fv_congr (f := feInvert z) (n := 0) (by rw [C43_invert_zero z hz h0]; rfl)
    simpa using this
  · obtain ⟨h1, h2⟩ := C43_invert z hz h0
    refine ⟨?_, h1⟩
    have e : (((feInvert z).val * z.val : Int) : F) = ((1 : Int) : F) :=
      (ZMod.intCast_eq_intCast_iff' _ _ _).2 (by rw [h2]; decide)
    rw [Int.cast_mul, Int.cast_one] at e
    exact eq_inv_of_mul_eq_one_left e

theorem leVal_append (a b : List Int) : leVal (a ++ b) = leVal a + 256 ^ a.length * leVal b := by
  induction a with
  | nil => simp [leVal]
  | cons x a ih => simp only [List.cons_append, leVal, ih, List.length_cons, pow_succ]; ring

theorem leVal_nonneg (l : List Int) (h : areBytes l) : 0 ≤ leVal l := by
  induction l with
  | nil => simp [leVal]
  | cons x l ih =>
    have := h x (by simp)
    have := ih (fun b hb => h b (List.mem_cons_of_mem _ hb))
    simp only [leVal]; omega

theorem u8_xor_top (x n : UInt8) (hx : x.toNat < 128) (hn : n.toNat < 2) : (x ^^^ (n <<< 7)).toNat = x.toNat + 128 * n.toNat := by
  have : n = 0 ∨ n = 1 := by
    rcases (show n.toNat = 0 ∨ n.toNat = 1 by omega) with h | h
    · left; exact UInt8.toNat_inj.1 h
    · right; exact UInt8.toNat_inj.1 h
  rcases this with rfl | rfl
  · simp
  · clear hn; revert x; exact forall_u8 (by decide +kernel)

theorem flipTop_val (s : List Int) (hl : s.length = 32) (hb : areBytes s) (hv : leVal s < 2 ^ 255) (n : Int) (hn : 0 ≤ n ∧ n < 2) :
    (flipTop s n).length = 32 ∧ areBytes (flipTop s n) ∧ leVal (flipTop s n) = leVal s + 2 ^ 255 * n := by
  have hne : s ≠ [] := by intro e; simp [e] at hl
  obtain ⟨l, x, hl', rfl⟩ : ∃ l x, l.length = 31 ∧ s = l ++ [x] :=
    ⟨s.dropLast, s.getLast hne, by simp [hl], (List.dropLast_append_getLast hne).symm⟩
  have hbx := hb x (by simp)
  have hbl : areBytes l := fun b h => hb b (List.mem_append_left _ h)
  have h0 := leVal_nonneg l hbl
  rw [leVal_append, hl'] at hv
  have hx : x < 128 := by simp only [leVal] at hv; omega
  have ex : (UInt8.ofInt x).toNat = x.toNat := by rw [UInt8.ofInt, UInt8.toNat_ofNat']; omega
  have en : (UInt8.ofInt n).toNat = n.toNat := by rw [UInt8.ofInt, UInt8.toNat_ofNat']; omega
  have e : flipTop (l ++ [x]) n = l ++ [x + 128 * n] := by
    unfold flipTop
    rw [show (l ++ [x]).getD 31 0 = x by rw [← hl']; simp, u8_xor_top _ _ (by omega) (by omega), ex, en,
      List.set_append_right _ _ (by omega)]
    simp only [hl', Nat.sub_self, List.set_cons_zero]
    congr 2
    omega
  rw [e]
  refine ⟨by simp [hl'], ?_, ?_⟩
  · intro b hbm
    rcases List.mem_append.1 hbm with h | h
    · exact hbl b h
    · simp at h; omega
  · rw [leVal_append, leVal_append, hl']; simp only [leVal]; ring

/-- The affine coordinates computed by ToBytes. -/
theorem erep_toBytes {p : ExtendedPoint} {P : Pt} (h : ERep p P) :
    p.toBytes.length = 32 ∧ areBytes p.toBytes ∧ leVal p.toBytes = (P.y.val + 2 ^ 255 * (P.x.val % 2) : Nat) := by
  obtain ⟨i1, i2⟩ := fv_invert (within_mono h.bz (show (101 : Int) ≤ 330 by decide))
  obtain ⟨x1, x2⟩ := fv_mul (within_mono h.bx (show (101 : Int) ≤ 330 by decide)) (within_mono i2 (show (101 : Int) ≤ 330 by decide))
  obtain ⟨y1, y2⟩ := fv_mul (within_mono h.bY (show (101 : Int) ≤ 330 by decide)) (within_mono i2 (show (101 : Int) ≤ 330 by decide))
  rw [i1, h.rep.x, mul_assoc, mul_inv_cancel₀ h.rep.z, mul_one] at x1
  rw [i1, h.rep.y, mul_assoc, mul_inv_cancel₀ h.rep.z, mul_one] at y1
  obtain ⟨-, t1, t2, t3⟩ := C43_to_bytes _ (within_mono y2 (show (101 : Int) ≤ 330 by decide))
  have n1 := C43_is_negative _ (within_mono x2 (show (101 : Int) ≤ 330 by decide))
  rw [← fv_val, y1] at t3
  rw [← fv_val, x1] at n1
  have hy : P.y.val < P25519 := ZMod.val_lt _
  have hp : P25519 < 2 ^ 255 := by decide
  obtain ⟨f1, f2, f3⟩ := flipTop_val _ t1 t2 (by rw [t3]; omega) _ (show 0 ≤ feIsNegative (feMul p.X (feInvert p.Z)) ∧
    feIsNegative (feMul p.X (feInvert p.Z)) < 2 by rw [n1]; omega)
  refine ⟨f1, f2, ?_⟩
  show leVal (flipTop _ _) = _
  rw [f3, t3, n1]
  push_cast; ring

theorem encodeYS_length (y : F) (s : Nat) : (encodeYS y s).length = 32 := by simp [encodeYS]
theorem leNat_encodeYS (y : F) {s : Nat} (hs : s < 2) : leNat (encodeYS y s) = y.val + 2 ^ 255 * s := by
  have hy : y.val < P25519 := ZMod.val_lt _
  have hp : P25519 < 2 ^ 255 := by decide
  rw [encodeYS, leNat_leBytes, Nat.mod_eq_of_lt]
  have : (256 : Nat) ^ 32 = 2 ^ 255 * 2 := by norm_num
  rw [this]
  omega

theorem erep_toArr {p : ExtendedPoint} {P : Pt} (h : ERep p P) : (Verif.toArr 32 p.toBytes).bytes = encodePoint P := by
  obtain ⟨h1, h2, h3⟩ := erep_toBytes h
  apply leNat_inj ((toArr 32 p.toBytes).len.trans (encodeYS_length _ _).symm)
  rw [leNat_encodeYS _ (Nat.mod_lt _ (by decide))]
  have := leNat_toArr h1 h2
  rw [h3] at this
  exact_mod_cast this

end Verif
