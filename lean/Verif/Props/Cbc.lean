import Verif.Proofs.Cbc
import Verif.Proofs.Toy
/-
C28: message encryption.
-/
namespace Verif

/-- **C28 (round trip).** For every plaintext, 16-byte IV and AES key: encryption succeeds, the
ciphertext length is the next multiple of 16 strictly above the plaintext length, and
decryption with the same key and IV returns exactly the plaintext. -/
theorem C28_cbc_roundtrip_partial (C : Crypto) (hA : C.AesLaw) (d : Option Block) (iv key pt : Bytes)
    (hiv : iv.length = 16) (hk : key.length = 16 ∨ key.length = 24 ∨ key.length = 32) :
    ∃ ct, encryptCbc C d (some iv) key pt = .ok ct ∧ ct.length = 16 * (pt.length / 16 + 1) ∧
      decryptCbc C (some iv) key ct = .ok pt := by
  have hk' := (aesKeyOk_iff key).2 hk
  obtain ⟨ct, h1, h2, h3⟩ := cbc_roundtrip C hA key iv (pad pt 16) (pt.length / 16 + 1) hk' hiv (pad_length pt)
  refine ⟨ct, by rw [encryptCbc_some C d iv key pt hk', h1], by rw [h2, pad_length], ?_⟩
  rw [decryptCbc, if_neg (by simp [hk']), if_neg (by rw [h2, pad_length]; omega)]
  simp [h3, unpad_pad]

/-- **C28 (random IV).** Without an IV the random 16 bytes are prepended and the same holds; the
call fails exactly when the random source fails. -/
theorem C28_cbc_roundtrip_nil_iv_partial (C : Crypto) (hA : C.AesLaw) (key pt : Bytes)
    (hk : key.length = 16 ∨ key.length = 24 ∨ key.length = 32) :
    encryptCbc C none none key pt = .err .randFailure ∧
    ∀ v : Block, ∃ ct, encryptCbc C (some v) none key pt = .ok ct ∧ ct.length = 16 + 16 * (pt.length / 16 + 1) ∧
      ct.take 16 = v.bytes ∧ decryptCbc C none key ct = .ok pt := by
  have hk' := (aesKeyOk_iff key).2 hk
  have hp := pad_length pt
  constructor
  · simp only [encryptCbc]
    rw [if_neg (by omega), if_neg (by simp [hk'])]
  · intro v
    obtain ⟨ct, h1, h2, h3⟩ := cbc_roundtrip C hA key v.bytes (pad pt 16) (pt.length / 16 + 1) hk' v.len (pad_length pt)
    have ht : (v.bytes ++ ct).take 16 = v.bytes := by
      rw [List.take_append_of_le_length (by rw [v.len]; omega), List.take_of_length_le (by rw [v.len]; omega)]
    have hd : (v.bytes ++ ct).drop 16 = ct := List.drop_left' v.len
    refine ⟨v.bytes ++ ct, ?_, by simp [v.len, h2, hp], ht, ?_⟩
    · simp only [encryptCbc]
      rw [if_neg (by omega), if_neg (by simp [hk']), h1]; rfl
    · rw [decryptCbc, if_neg (by simp [hk']), if_neg (by simp [v.len])]
      simp only [ht, hd, h3, Res.bind_ok, unpad_pad]

/-- **C28 (no crash), exact.** With an explicit 16-byte IV and a valid key, decryption crashes
exactly on ciphertexts of at least 16 bytes that are not a whole number of blocks; on every
other input it returns a plaintext (shorter than or as long as the ciphertext) or an error. -/
theorem C28_decrypt_panics_iff (C : Crypto) (iv key ct : Bytes) (hiv : iv.length = 16)
    (hk : key.length = 16 ∨ key.length = 24 ∨ key.length = 32) :
    (decryptCbc C (some iv) key ct = .panic ↔ 16 ≤ ct.length ∧ ct.length % 16 ≠ 0) ∧
    (∀ pt, decryptCbc C (some iv) key ct = .ok pt → pt.length ≤ ct.length) := by
  have hk' := (aesKeyOk_iff key).2 hk
  rw [decryptCbc, if_neg (by simp [hk'])]
  by_cases h16 : ct.length < 16
  · rw [if_pos h16]; simp; omega
  · rw [if_neg h16]
    by_cases hm : ct.length % 16 = 0
    · have hl : ct.length = 16 * (ct.length / 16) := by omega
      rw [cbcCrypt_ok _ _ _ (ct.length / 16) hiv hl]
      have hb : (ofBlocks (cbcDecBlocks C key ⟨iv, hiv⟩ (toBlocks (ct.length / 16) ct))).length = ct.length := by
        rw [ofBlocks_length, cbcDecBlocks_length, toBlocks_length]; omega
      simp only [Res.bind_ok, unpad]
      generalize ofBlocks (cbcDecBlocks C key ⟨iv, hiv⟩ (toBlocks (ct.length / 16) ct)) = p at hb
      cases hp : p.getLast? with
      | none => rw [List.getLast?_eq_none_iff] at hp; subst hp; simp at hb; omega
      | some x =>
        by_cases hx : p.length < x.toNat
        · simp [hx]; omega
        · simp only [hx, if_false, reduceCtorEq, Res.ok.injEq, false_iff, not_and]
          refine ⟨fun _ h => h hm, ?_⟩
          rintro pt rfl; simp; omega
    · rw [cbcCrypt, dif_pos hiv, if_neg hm]; simp; omega

/-- C28, corollary in the words of the property. -/
theorem C28_decrypt_no_panic_partial (C : Crypto) (iv key ct : Bytes) (hiv : iv.length = 16)
    (hk : key.length = 16 ∨ key.length = 24 ∨ key.length = 32) (h : ct.length % 16 = 0) :
    decryptCbc C (some iv) key ct ≠ .panic := by
  intro hp
  have := ((C28_decrypt_panics_iff C iv key ct hiv hk).1.1 hp).2
  contradiction

/-- **C28 (nil IV) is false at one length:** with the IV taken from the ciphertext, a ciphertext
of exactly 16 bytes (IV only) crashes. -/
theorem C28_nil_iv_panic_false (C : Crypto) (key ct : Bytes)
    (hk : key.length = 16 ∨ key.length = 24 ∨ key.length = 32) (h : ct.length = 16) :
    decryptCbc C none key ct = .panic := by
  have hk' := (aesKeyOk_iff key).2 hk
  rw [decryptCbc, if_neg (by simp [hk']), if_neg (by omega)]
  rw [List.drop_of_length_le (by omega), List.take_of_length_le (by omega), cbcCrypt_ok _ _ _ 0 h (by simp)]
  have : ∀ iv, cbcDecBlocks C key iv (toBlocks 0 []) = [] := by simp [toBlocks, cbcDecBlocks]
  rw [this]; rfl

/-- C28 (padding check is lax): decryption accepts a block whose last byte is 0 and returns it
whole, and accepts pad bytes that are not all equal to the pad length. -/
theorem C28_unpad_lax (b : Bytes) :
    unpad (b ++ [0]) = .ok (b ++ [0]) ∧ ∀ x, unpad (b ++ [x, 2]) = .ok b := by
  constructor
  · simp [unpad, List.take_of_length_le]
  · intro x
    have : (b ++ [x, 2]).getLast? = some 2 := by simp
    simp [unpad, this]

theorem pkcs7_roundtrip (b : Bytes) (h : b ≠ []) :
    ∃ p, pkcs7Pad b 16 = .ok p ∧ p.length = 16 * (b.length / 16 + 1) ∧ pkcs7Unpad p 16 = .ok b := by
  have h0 : b.length ≠ 0 := fun e => h (List.length_eq_zero_iff.1 e)
  refine ⟨pad b 16, by simp [pkcs7Pad, h, pad], pad_length b, ?_⟩
  have hp : 16 - b.length % 16 ≠ 0 := by omega
  have hlt : 16 - b.length % 16 < 256 := by omega
  have hlen := pad_length b
  unfold pkcs7Unpad
  unfold pad at hlen ⊢
  generalize hn : 16 - b.length % 16 = n at hp hlt hlen
  simp only [hn] at hlen ⊢
  have hlast : (b ++ List.replicate n (UInt8.ofNat n)).getLast? = some (UInt8.ofNat n) := by
    rw [List.getLast?_append]; simp [List.getLast?_replicate, hp]
  have hv : (UInt8.ofNat n).toNat = n := by simp; omega
  simp only [hlast, hv, hlen]
  rw [if_neg (by omega), if_neg (by simp at hlen; omega), ← hlen]
  have : (b ++ List.replicate n (UInt8.ofNat n)).length - n = b.length := by simp
  rw [this, List.drop_left, List.take_left]
  simp

/-- **C28 (PKCS#7 variant).** Round trip for every non-empty plaintext (the empty one is rejected);
malformed input yields an error, never a crash, when it is a multiple of 16 bytes. -/
theorem C28_pkcs7_roundtrip (C : Crypto) (hA : C.AesLaw) (iv key pt : Bytes) (hiv : iv.length = 16)
    (hk : key.length = 16 ∨ key.length = 24 ∨ key.length = 32) (hpt : pt ≠ []) :
    ∃ ct, cipherEncrypt C iv key pt = .ok ct ∧ ct.length = 16 * (pt.length / 16 + 1) ∧
      cipherDecrypt C iv key ct = .ok pt := by
  have hk' := (aesKeyOk_iff key).2 hk
  obtain ⟨p, p1, p2, p3⟩ := pkcs7_roundtrip pt hpt
  obtain ⟨ct, h1, h2, h3⟩ := cbc_roundtrip C hA key iv p (pt.length / 16 + 1) hk' hiv p2
  refine ⟨ct, by simp [cipherEncrypt, hk', p1, h1], by omega, ?_⟩
  rw [cipherDecrypt, if_neg (by simp [hk']), if_neg (by omega), h3]
  exact p3

theorem C28_pkcs7_no_panic (C : Crypto) (iv key ct : Bytes) (hiv : iv.length = 16) (h : ct.length % 16 = 0) :
    cipherDecrypt C iv key ct ≠ .panic ∧ (cipherEncrypt C iv key [] ≠ .panic ∧ ¬ (cipherEncrypt C iv key []).isOk) := by
  constructor
  · unfold cipherDecrypt
    split
    · simp
    · split
      · simp
      · rw [cbcCrypt, dif_pos hiv, if_pos h]
        simp only [Res.bind_ok, pkcs7Unpad]
        repeat' split
        all_goals simp
  · unfold cipherEncrypt
    split <;> simp [pkcs7Pad, Res.isOk]

/-- **C28 (strict padding).** The PKCS#7 variant accepts a decrypted text exactly if it ends in `n ≥ 1` bytes of value `n`, and
then returns what precedes them: for every sequence `q` of whole blocks and its CBC encryption. -/
theorem C28_pkcs7_strict (C : Crypto) (hA : C.AesLaw) (iv key q : Bytes) (k : Nat) (hk1 : 1 ≤ k) (hiv : iv.length = 16)
    (hk : key.length = 16 ∨ key.length = 24 ∨ key.length = 32) (hq : q.length = 16 * k) :
    ∃ ct, cbcCrypt (cbcEncBlocks C key) iv q = .ok ct ∧
      ∀ p, cipherDecrypt C iv key ct = .ok p ↔ ∃ n, 1 ≤ n ∧ n < 256 ∧ q = p ++ List.replicate n (UInt8.ofNat n) := by
  have hk' := (aesKeyOk_iff key).2 hk
  obtain ⟨ct, h1, h2, h3⟩ := cbc_roundtrip C hA key iv q k hk' hiv hq
  refine ⟨ct, h1, fun p => ?_⟩
  rw [cipherDecrypt, if_neg (by simp [hk']), if_neg (by omega), h3]
  simp only [Res.bind_ok, pkcs7Unpad]
  constructor
  · intro h
    split at h
    · cases h
    · rename_i c hc
      split at h
      · cases h
      · split at h
        · cases h
        · rename_i hn
          split at h
          · rename_i hall
            simp only [Res.ok.injEq] at h
            have hlt : c.toNat < 256 := c.toNat_lt
            refine ⟨c.toNat, by omega, hlt, ?_⟩
            rw [← h]
            have : q.drop (q.length - c.toNat) = List.replicate c.toNat (UInt8.ofNat c.toNat) := by
              rw [List.eq_replicate_iff]
              refine ⟨by rw [List.length_drop]; omega, fun b hb => ?_⟩
              have := List.all_eq_true.1 hall b hb
              simp only [beq_iff_eq] at this
              rw [this]; simp
            rw [← this, List.take_append_drop]
          · cases h
  · rintro ⟨n, hn, hn', rfl⟩
    have hlast : (p ++ List.replicate n (UInt8.ofNat n)).getLast? = some (UInt8.ofNat n) := by
      rw [List.getLast?_append]; simp [List.getLast?_replicate]; omega
    have hv : (UInt8.ofNat n).toNat = n := by simp; omega
    have hl : (p ++ List.replicate n (UInt8.ofNat n)).length - n = p.length := by simp
    simp only [hlast, hv]
    rw [if_neg (by omega), if_neg (by simp; omega), hl, List.drop_left, List.take_left]
    simp

/-- The hypotheses are met by a concrete cipher, and the ciphertext differs from the plaintext. -/
example : Toy.C.AesLaw ∧ ∃ ct, encryptCbc Toy.C none (some (List.replicate 16 9)) (Toy.key 3).bytes [1,2,3] = .ok ct ∧
    ct.length = 16 ∧ ct.take 3 ≠ [1,2,3] := ⟨Toy.aesLaw, _, rfl, by decide +kernel, by decide +kernel⟩

end Verif
