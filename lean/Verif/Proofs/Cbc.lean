import Verif.Model.Cbc
import Verif.Proofs.Basic
/- CBC mode lemmas. -/
namespace Verif

theorem ofBlocks_length (l : List Block) : (ofBlocks l).length = 16 * l.length := by
  induction l with
  | nil => rfl
  | cons b l ih => simp [ofBlocks, b.len] at ih ⊢; omega

theorem ofBlocks_cons (b : Block) (l : List Block) : ofBlocks (b :: l) = b.bytes ++ ofBlocks l := by
  simp [ofBlocks]

theorem toBlocks_ofBlocks (l : List Block) : toBlocks l.length (ofBlocks l) = l := by
  induction l with
  | nil => rfl
  | cons b l ih =>
    have h1 : (b.bytes ++ ofBlocks l).take 16 = b.bytes := by
      rw [List.take_append_of_le_length (by rw [b.len]; omega), List.take_of_length_le (by rw [b.len]; omega)]
    have h2 : (b.bytes ++ ofBlocks l).drop 16 = ofBlocks l := List.drop_left' b.len
    rw [List.length_cons, ofBlocks_cons, toBlocks, h1, h2, ih, sliceToArray_bytes]

theorem ofBlocks_toBlocks (n : Nat) (b : Bytes) (h : b.length = 16 * n) : ofBlocks (toBlocks n b) = b := by
  induction n generalizing b with
  | zero => simp at h; subst h; rfl
  | succ n ih =>
    rw [toBlocks, ofBlocks_cons, ih _ (by simp; omega)]
    have : (sliceToArray 16 (List.take 16 b)).bytes = b.take 16 := copyInto_self (by simp; omega)
    rw [this, List.take_append_drop]

theorem toBlocks_length (n : Nat) (b : Bytes) : (toBlocks n b).length = n := by
  induction n generalizing b with
  | zero => rfl
  | succ n ih => simp [toBlocks, ih]

theorem xor_cancel : ∀ (a b : List UInt8), a.length = b.length →
    List.zipWith (· ^^^ ·) a (List.zipWith (· ^^^ ·) a b) = b
  | [], [], _ => rfl
  | [], _ :: _, h => by simp at h
  | _ :: _, [], h => by simp at h
  | x :: a, y :: b, h => by
    simp only [List.zipWith_cons_cons]
    rw [xor_cancel a b (by simpa using h), ← UInt8.xor_assoc, UInt8.xor_self, UInt8.zero_xor]

theorem xorBlock_cancel (a b : Block) : xorBlock a (xorBlock a b) = b :=
  Arr.ext (xor_cancel _ _ (by rw [a.len, b.len]))

theorem cbcEncBlocks_length (C : Crypto) (key : Bytes) (iv : Block) (l : List Block) :
    (cbcEncBlocks C key iv l).length = l.length := by
  induction l generalizing iv with
  | nil => rfl
  | cons p l ih => simp [cbcEncBlocks, ih]

theorem cbcDecBlocks_length (C : Crypto) (key : Bytes) (iv : Block) (l : List Block) :
    (cbcDecBlocks C key iv l).length = l.length := by
  induction l generalizing iv with
  | nil => rfl
  | cons p l ih => simp [cbcDecBlocks, ih]

theorem cbcDec_enc (C : Crypto) (key : Bytes) (h : ∀ b, C.aesDec key (C.aesEnc key b) = b) (iv : Block)
    (l : List Block) : cbcDecBlocks C key iv (cbcEncBlocks C key iv l) = l := by
  induction l generalizing iv with
  | nil => rfl
  | cons p l ih => simp [cbcEncBlocks, cbcDecBlocks, h, xorBlock_cancel, ih]

theorem pad_length (b : Bytes) : (pad b 16).length = 16 * (b.length / 16 + 1) := by
  simp [pad]; omega

theorem unpad_pad (b : Bytes) : unpad (pad b 16) = .ok b := by
  have hp : 16 - b.length % 16 ≠ 0 := by omega
  have hlt : 16 - b.length % 16 < 256 := by omega
  generalize hn : 16 - b.length % 16 = n at hp hlt
  have hlast : (b ++ List.replicate n (UInt8.ofNat n)).getLast? = some (UInt8.ofNat n) := by
    rw [List.getLast?_append]; simp [List.getLast?_replicate, hp]
  have hv : (UInt8.ofNat n).toNat = n := by simp; omega
  unfold unpad pad
  simp only [hn, hlast, hv]
  rw [if_neg (by simp)]
  simp

theorem cbcCrypt_ok (f : Block → List Block → List Block) (iv data : Bytes) (n : Nat) (h : iv.length = 16)
    (hd : data.length = 16 * n) : cbcCrypt f iv data = .ok (ofBlocks (f ⟨iv, h⟩ (toBlocks n data))) := by
  have e : data.length / 16 = n := by omega
  rw [cbcCrypt, dif_pos h, if_pos (by omega), e]

theorem aesKeyOk_iff (k : Bytes) : aesKeyOk k = true ↔ (k.length = 16 ∨ k.length = 24 ∨ k.length = 32) := by
  simp [aesKeyOk, or_assoc]

/-- CBC of a padded plaintext. -/
theorem cbc_roundtrip (C : Crypto) (hA : C.AesLaw) (key iv p : Bytes) (n : Nat) (hk : aesKeyOk key = true)
    (hiv : iv.length = 16) (hp : p.length = 16 * n) :
    ∃ ct, cbcCrypt (cbcEncBlocks C key) iv p = .ok ct ∧ ct.length = p.length ∧
      cbcCrypt (cbcDecBlocks C key) iv ct = .ok p := by
  refine ⟨_, cbcCrypt_ok _ _ _ n hiv hp, ?_, ?_⟩
  · rw [ofBlocks_length, cbcEncBlocks_length, toBlocks_length]; omega
  · have hl : (ofBlocks (cbcEncBlocks C key ⟨iv, hiv⟩ (toBlocks n p))).length = 16 * n := by
      rw [ofBlocks_length, cbcEncBlocks_length, toBlocks_length]
    rw [cbcCrypt_ok _ _ _ n hiv hl]
    have := toBlocks_ofBlocks (cbcEncBlocks C key ⟨iv, hiv⟩ (toBlocks n p))
    rw [cbcEncBlocks_length, toBlocks_length] at this
    rw [this, cbcDec_enc C key (fun b => hA key b ((aesKeyOk_iff key).1 hk)), ofBlocks_toBlocks n p hp]

theorem encryptCbc_some (C : Crypto) (d : Option Block) (iv key pt : Bytes) (hk : aesKeyOk key = true) :
    encryptCbc C d (some iv) key pt = cbcCrypt (cbcEncBlocks C key) iv (pad pt 16) := by
  have := pad_length pt
  simp only [encryptCbc]
  rw [if_neg (by omega), if_neg (by simp [hk])]

end Verif
