import Verif.Model.Crypto
import Verif.Spec.Decimal
/- Helper lemmas about byte strings, keys and decimal numbers. -/
namespace Verif

/-- A statement about all bytes, reduced to the 256-element table (then `decide`). -/
theorem forall_u8 {p : UInt8 → Prop} (h : ∀ n : Fin 256, p (UInt8.ofNat n.val)) (b : UInt8) : p b := by
  have := h ⟨b.toNat, b.toNat_lt⟩
  simpa using this

theorem u8_and248 (b : UInt8) : (b &&& 248).toNat % 8 = 0 := by
  revert b; exact forall_u8 (by decide +kernel)
theorem u8_top (b : UInt8) : 64 ≤ ((b &&& 127) ||| 64).toNat ∧ ((b &&& 127) ||| 64).toNat < 128 := by
  revert b; exact forall_u8 (by decide +kernel)

theorem clamp_isClamped (k : Key32) : IsClamped (clamp k) := by
  obtain ⟨l, hl⟩ := k
  have h0 : 0 < l.length := by omega
  have h31 : 31 < l.length := by omega
  refine ⟨⟨l[0] &&& 248, ?_, u8_and248 _⟩, ⟨(l[31] &&& 127) ||| 64, ?_, u8_top _⟩⟩
  · simp [clamp, h0]
  · simp [clamp, h31]

theorem copyInto_self {n : Nat} {b : Bytes} (h : b.length = n) : copyInto n b = b := by
  subst h; simp [copyInto]

theorem copyInto_take (n : Nat) (b : Bytes) (h : n ≤ b.length) : copyInto n b = b.take n := by
  simp [copyInto, Nat.sub_eq_zero_of_le h]

@[simp] theorem sliceToArray_bytes {n : Nat} (a : Arr n) : sliceToArray n a.bytes = a :=
  Arr.ext (copyInto_self a.len)

@[simp] theorem decodePoint_serPub (k : Key32) : decodePoint (serPub k) = .ok k := by
  simp [decodePoint, serPub]

theorem serPub_inj {a b : Key32} (h : serPub a = serPub b) : a = b := by
  simp [serPub] at h; exact Arr.ext h

@[simp] theorem serPub_eq_iff {a b : Key32} : serPub a = serPub b ↔ a = b :=
  ⟨serPub_inj, fun h => h ▸ rfl⟩

@[simp] theorem serPub_length (k : Key32) : (serPub k).length = 33 := by simp [serPub, k.len]

@[simp] theorem serPub_ne_nil (k : Key32) : serPub k ≠ [] := by simp [serPub]

/-! ### Decimal numbers -/

theorem digitChar_toNat (d : Nat) : (digitChar d).toNat = 48 + d % 10 := by
  simp [digitChar]; omega

theorem foldl_dec_acc (b : Bytes) (a : Nat) :
    b.foldl (fun acc x => acc * 10 + (x.toNat - 48)) a = a * 10 ^ b.length + decVal b := by
  induction b generalizing a with
  | nil => simp [decVal]
  | cons x xs ih =>
    simp only [List.foldl_cons, List.length_cons, decVal]
    rw [ih, ih (0 * 10 + _)]; grind

theorem decVal_cons (x : UInt8) (b : Bytes) : decVal (x :: b) = (x.toNat - 48) * 10 ^ b.length + decVal b := by
  rw [decVal, List.foldl_cons, foldl_dec_acc]; simp

theorem natDecAux_val : ∀ (fuel n : Nat) (acc : Bytes), n < fuel →
    decVal (natDecAux fuel n acc) = n * 10 ^ acc.length + decVal acc
  | 0, n, acc, h => by omega
  | fuel + 1, n, acc, h => by
    rw [natDecAux]
    split
    · rename_i h10
      rw [decVal_cons, digitChar_toNat]
      rw [Nat.mod_eq_of_lt h10]; simp
    · rename_i h10
      rw [natDecAux_val fuel (n / 10) _ (by omega), decVal_cons, digitChar_toNat]
      simp only [List.length_cons, Nat.pow_succ]
      have : n = n / 10 * 10 + n % 10 := by omega
      have e : (n / 10 * (10 ^ acc.length * 10)) + (n % 10) * 10 ^ acc.length = n * 10 ^ acc.length := by
        conv => rhs; rw [this]
        grind
      simp only [Nat.add_sub_cancel_left]
      omega

/-- The decimal rendering denotes the number. -/
theorem natDec_eq (n : Nat) : decVal (natDec n) = n := by
  rw [natDec, natDecAux_val _ _ _ (by omega)]; simp [decVal]

theorem natDec_inj {a b : Nat} (h : natDec a = natDec b) : a = b := by
  rw [← natDec_eq a, ← natDec_eq b, h]

theorem natDecAux_digits : ∀ (fuel n : Nat) (acc : Bytes), (∀ x ∈ acc, isDigit x) →
    ∀ x ∈ natDecAux fuel n acc, isDigit x
  | 0, n, acc, h => by simpa [natDecAux] using h
  | fuel + 1, n, acc, h => by
    have hd : isDigit (digitChar n) := by unfold isDigit; rw [digitChar_toNat]; omega
    rw [natDecAux]
    split
    · intro x hx
      rcases List.mem_cons.1 hx with rfl | hx
      · exact hd
      · exact h x hx
    · apply natDecAux_digits
      intro x hx
      rcases List.mem_cons.1 hx with rfl | hx
      · exact hd
      · exact h x hx

theorem natDec_digits (n : Nat) : ∀ x ∈ natDec n, isDigit x :=
  natDecAux_digits _ _ _ (by simp)

theorem natDecAux_ne_nil (fuel n : Nat) (acc : Bytes) (h : n < fuel) : natDecAux fuel n acc ≠ [] := by
  induction fuel generalizing n acc with
  | zero => omega
  | succ f ih =>
    rw [natDecAux]; split
    · simp
    · apply ih; omega

theorem natDec_ne_nil (n : Nat) : natDec n ≠ [] := natDecAux_ne_nil _ _ _ (by omega)

theorem natDecAux_length : ∀ (fuel n k : Nat) (acc : Bytes), n < 10 ^ (k + 1) →
    (natDecAux fuel n acc).length ≤ k + 1 + acc.length
  | 0, n, k, acc, h => by simp [natDecAux]
  | fuel + 1, n, k, acc, h => by
    rw [natDecAux]
    split
    · simp; omega
    · rename_i h10
      cases k with
      | zero => simp at h; omega
      | succ k =>
        have := natDecAux_length fuel (n / 10) k (digitChar n :: acc) (by
          rw [Nat.pow_succ] at h; exact Nat.div_lt_of_lt_mul (by omega))
        simp at this; omega

theorem natDec_length {n k : Nat} (h : n < 10 ^ (k + 1)) : (natDec n).length ≤ k + 1 :=
  natDecAux_length _ _ _ _ h

theorem itoa_inj {a b : Int} (h : itoa a = itoa b) : a = b := by
  match a, b with
  | .ofNat a, .ofNat b => simp [itoa] at h; rw [natDec_inj h]
  | .negSucc a, .negSucc b =>
    simp [itoa] at h
    have := natDec_inj h; congr 1; omega
  | .ofNat a, .negSucc b =>
    simp [itoa] at h
    have := natDec_digits a 45 (by rw [h]; simp)
    simp [isDigit] at this
  | .negSucc a, .ofNat b =>
    simp [itoa] at h
    have := natDec_digits b 45 (by rw [← h]; simp)
    simp [isDigit] at this

end Verif
