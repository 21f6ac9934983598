import Verif.Model.Provision
import Verif.Proofs.JsonTypes
import Verif.Props.Auth
import Verif.Props.Cbc
import Verif.Proofs.Toy
import Verif.Proofs.Keys
/-
C38: provisioning messages.
-/
namespace Verif

/-- Specification: the two keys shared by a provisioning sender and recipient. -/
def provisionKeys (C : Crypto) (secret : Key32) : Res (Bytes × Bytes) :=
  (deriveSecrets C secret.bytes none (ascii "Mixin Provisioning Message") 64).map fun d => (d.take 32, d.drop 32)

/-- Specification: the body a sender builds: version 1, IV, ciphertext, MAC over all of these. -/
def provisionBody (C : Crypto) (macKey iv ct : Bytes) : Bytes :=
  (1 :: iv ++ ct) ++ (C.hmac macKey (1 :: iv ++ ct)).bytes

theorem provisionDecrypt_long (C : Crypto) (priv : Bytes) (pub : Key32) (iv ct mac : Bytes)
    (hiv : iv.length = 16) (hmac : mac.length = 32) :
    provisionDecrypt C priv (serPub pub) ((1 :: iv ++ ct) ++ mac) =
      (provisionKeys C (C.dh pub (sliceToArray 32 priv))).bind fun (aes, mk) =>
        if (C.hmac mk (1 :: iv ++ ct)).bytes = mac then decryptCbc C (some iv) aes ct else .err .badMac := by
  have hl : ((1 :: iv ++ ct) ++ mac).length = 17 + ct.length + 32 := by simp [hiv, hmac]; omega
  have e1 : ((1 :: iv ++ ct) ++ mac).length - 32 = (1 :: iv ++ ct).length := by rw [hl]; simp [hiv]; omega
  have t1 : ((1 :: iv ++ ct) ++ mac).take (((1 :: iv ++ ct) ++ mac).length - 32) = 1 :: iv ++ ct := by
    rw [e1, List.take_left]
  have t2 : ((1 :: iv ++ ct) ++ mac).drop (((1 :: iv ++ ct) ++ mac).length - 32) = mac := by
    rw [e1, List.drop_left]
  have t3 : (1 :: iv ++ ct).drop 17 = ct := by simp [List.drop_left' hiv]
  have t4 : (((1 :: iv ++ ct) ++ mac).drop 1).take 16 = iv := by
    simp [hiv]
  unfold provisionDecrypt
  rw [decodePoint_serPub]
  simp only [t1, t2, t3, t4]
  rw [if_neg (by omega), if_neg (by omega), if_neg (by omega)]
  show (if (1 : UInt8) ≠ 1 then Res.panic else _) = _
  rw [if_neg (by decide)]
  rw [provisionKeys]
  cases deriveSecrets C (C.dh pub (sliceToArray 32 priv)).bytes none (ascii "Mixin Provisioning Message") 64 <;> rfl

/-- Every body long enough decomposes into version, IV, ciphertext and MAC. -/
theorem body_split (v : UInt8) (b : Bytes) (h : 49 ≤ (v :: b).length) :
    ∃ iv ct mac, v :: b = (v :: iv ++ ct) ++ mac ∧ iv.length = 16 ∧ mac.length = 32 := by
  simp at h
  refine ⟨b.take 16, (b.drop 16).take (b.length - 48), (b.drop 16).drop (b.length - 48), ?_, by simp; omega,
    by simp; omega⟩
  rw [List.append_assoc, List.cons_append, List.take_append_drop, List.take_append_drop]

/-- **C38 (authentication).** Whenever a plaintext is returned, the body consists of version 1, a
16-byte IV, a ciphertext and a 32-byte MAC equal to the HMAC of everything before it under the
derived MAC key, and the plaintext is the CBC decryption of that ciphertext. -/
theorem C38_authenticated_partial (C : Crypto) (priv publicKey body pt : Bytes)
    (h : provisionDecrypt C priv publicKey body = .ok pt) :
    ∃ pub iv ct mac aes mk, decodePoint publicKey = .ok pub ∧ body = (1 :: iv ++ ct) ++ mac ∧ iv.length = 16 ∧
      provisionKeys C (C.dh pub (sliceToArray 32 priv)) = .ok (aes, mk) ∧
      mac = (C.hmac mk (1 :: iv ++ ct)).bytes ∧ decryptCbc C (some iv) aes ct = .ok pt := by
  have h0 := h
  unfold provisionDecrypt at h
  cases hp : decodePoint publicKey with
  | err e => simp [hp] at h
  | panic => simp [hp] at h
  | ok pub =>
    simp only [hp] at h
    cases body with
    | nil => simp at h
    | cons v b =>
      simp only at h
      split at h
      · simp at h
      · rename_i hv
        split at h
        · simp at h
        · split at h
          · simp at h
          · split at h
            · simp at h
            · rename_i h1 h2 h3
              have hv' : v = 1 := Decidable.not_not.1 hv
              obtain ⟨iv, ct, mac, hb, hiv, hmac⟩ := body_split v b (by omega)
              subst hv'
              have hdec : decodePoint (serPub pub) = .ok pub := decodePoint_serPub pub
              have h0' : provisionDecrypt C priv (serPub pub) (1 :: b) = .ok pt := by
                rw [← h0]; unfold provisionDecrypt; rw [hp, hdec]
              rw [hb, provisionDecrypt_long C priv pub iv ct mac hiv hmac] at h0'
              cases hk : provisionKeys C (C.dh pub (sliceToArray 32 priv)) with
              | err e => simp [hk] at h0'
              | panic => simp [hk] at h0'
              | ok p =>
                obtain ⟨aes, mk⟩ := p
                simp only [hk, Res.bind_ok] at h0'
                split at h0'
                · rename_i hm
                  exact ⟨pub, iv, ct, mac, aes, mk, rfl, hb, hiv, hk, hm.symm, h0'⟩
                · simp at h0'

/-- **C38 (round trip).** A body built by a sender for the recipient's public key decrypts to the
sender's plaintext. -/
theorem C38_roundtrip_partial (C : Crypto) (hA : C.AesLaw) (hdh : C.DhLaw) (ourPriv ephPriv : Key32) (iv pt : Bytes)
    (hiv : iv.length = 16) :
    ∃ aes mk ct, provisionKeys C (C.dh (C.basePub ourPriv) ephPriv) = .ok (aes, mk) ∧
      encryptCbc C none (some iv) aes pt = .ok ct ∧
      provisionDecrypt C ourPriv.bytes (serPub (C.basePub ephPriv)) (provisionBody C mk iv ct) = .ok pt := by
  obtain ⟨d, hd, hl⟩ := deriveSecrets_ok C (C.dh (C.basePub ourPriv) ephPriv).bytes none
    (ascii "Mixin Provisioning Message") (n := 64) (by omega)
  have hk : (d.take 32).length = 32 := by simp; omega
  obtain ⟨ct, h1, h2, h3⟩ := C28_cbc_roundtrip_partial C hA none iv (d.take 32) pt hiv (.inr (.inr hk))
  refine ⟨d.take 32, d.drop 32, ct, by simp [provisionKeys, hd], h1, ?_⟩
  rw [provisionBody, provisionDecrypt_long C _ _ iv ct _ hiv (Arr.len _), sliceToArray_bytes, hdh ephPriv ourPriv]
  simp [provisionKeys, hd, h3]

/-- The hypotheses are met: a concrete body built by a sender decrypts. -/
example : ∃ aes mk ct, provisionKeys Toy.C (Toy.C.dh (Toy.C.basePub (Toy.key 3)) (Toy.key 4)) = .ok (aes, mk) ∧
    encryptCbc Toy.C none (some (List.replicate 16 7)) aes [1, 2, 3] = .ok ct ∧
    provisionDecrypt Toy.C (Toy.key 3).bytes (serPub (Toy.C.basePub (Toy.key 4)))
      (provisionBody Toy.C mk (List.replicate 16 7) ct) = .ok [1, 2, 3] :=
  C38_roundtrip_partial Toy.C Toy.aesLaw Toy.dhLaw _ _ _ _ rfl

/-- **C38, partial (malformed input).** Bodies of at least 49 bytes with version 1 and a
well-formed public key never crash unless their MAC verifies on a ciphertext that is not a
whole number of blocks.  Missing: the remaining malformed inputs crash, see below. -/
theorem C38_malformed_partial (C : Crypto) (priv : Bytes) (pub : Key32) (b : Bytes) (h : 48 ≤ b.length)
    (hp : provisionDecrypt C priv (serPub pub) (1 :: b) = .panic) :
    ∃ iv ct mac aes mk, 1 :: b = (1 :: iv ++ ct) ++ mac ∧
      provisionKeys C (C.dh pub (sliceToArray 32 priv)) = .ok (aes, mk) ∧
      mac = (C.hmac mk (1 :: iv ++ ct)).bytes ∧ 16 ≤ ct.length ∧ ct.length % 16 ≠ 0 := by
  obtain ⟨iv, ct, mac, hb, hiv, hmac⟩ := body_split 1 b (by simp; omega)
  rw [hb, provisionDecrypt_long C priv pub iv ct mac hiv hmac] at hp
  obtain ⟨d, hd, hl⟩ := deriveSecrets_ok C (C.dh pub (sliceToArray 32 priv)).bytes none
    (ascii "Mixin Provisioning Message") (n := 64) (by omega)
  have hk : provisionKeys C (C.dh pub (sliceToArray 32 priv)) = .ok (d.take 32, d.drop 32) := by
    simp [provisionKeys, hd]
  rw [hk] at hp
  simp only [Res.bind_ok] at hp
  split at hp
  · rename_i hm
    have := (C28_decrypt_panics_iff C iv (d.take 32) ct hiv (by simp; omega)).1.1 hp
    exact ⟨iv, ct, mac, _, _, hb, hk, hm.symm, this⟩
  · simp at hp

/-- **C38's malformed-input clause is false.** An empty or wrongly typed public key, an empty
body, any version byte other than 1 and any body shorter than 49 bytes crash the call, for
every private key. -/
theorem C38_malformed_false (C : Crypto) (priv publicKey body : Bytes)
    (h : publicKey.head? ≠ some 5 ∨ body.head? ≠ some 1 ∨ body.length < 49) :
    provisionDecrypt C priv publicKey body = .panic := by
  unfold provisionDecrypt
  cases publicKey with
  | nil => rfl
  | cons t rest =>
    simp only [decodePoint]
    split
    · rfl
    · rfl
    · rename_i heq
      split at heq
      · rename_i ht
        cases body with
        | nil => rfl
        | cons v b =>
          simp only
          split
          · rfl
          · rename_i hv
            split
            · rfl
            · split
              · rfl
              · split
                · rfl
                · exfalso
                  rcases h with h | h | h
                  · simp [ht, djbType] at h
                  · simp at h; exact hv h
                  · omega
      · simp at heq

example : (provisionDecrypt Toy.C (Toy.key 1).bytes (serPub (Toy.key 2)) [1, 2, 3]).isPanic = true := by decide

/-! ### From the two text arguments -/

theorem Envelope.json_reads (e : Envelope) : Reads Envelope.toJson Envelope.ofJson _root_.id e := by
  refine ⟨_, rfl, ?_⟩
  rw [Envelope.ofJson, bytesField_get (b := e.publicKey) rfl, bytesField_get (b := e.body) rfl]
  rfl

theorem Envelope.json_plain (e : Envelope) : e.toJson.plain :=
  plain_jStruct _ (by simp only [List.map]; decide +kernel) (by simp [plain_jBytes])

theorem b64Dec_b64Enc (b : Bytes) : b64Dec (b64Enc b) = some b := by
  have := b64Dec_enc b
  rwa [unquote_plain _ (b64Enc_plain b)] at this

/-- Specification: the text a sender transmits: base64 of the JSON object with the ephemeral public key and the body. -/
def provisionText (pub : Key32) (body : Bytes) : Bytes :=
  Spec.base64 (ascii "{\"public_key\":\"" ++ Spec.base64 (5 :: pub.bytes) ++ ascii "\",\"body\":\"" ++ Spec.base64 body ++ ascii "\"}")

theorem provisionText_eq (pub : Key32) (body : Bytes) : provisionText pub body = b64Enc (Envelope.toJson ⟨some (serPub pub), some body⟩).enc := by
  have e1 : ascii "{\"public_key\":\"" = 123 :: 34 :: (ascii "public_key" ++ [34, 58, 34]) := by decide +kernel
  have e2 : ascii "\",\"body\":\"" = 34 :: 44 :: 34 :: (ascii "body" ++ [34, 58, 34]) := by decide +kernel
  have e3 : ascii "\"}" = [34, 125] := by decide +kernel
  rw [provisionText, ← b64Enc_spec, ← b64Enc_spec, ← b64Enc_spec, e1, e2, e3]
  congr 1
  simp [Envelope.toJson, jStruct, jBytes, JVal.enc, encMembers, serPub, djbType]

/-- **C38 (round trip, whole call).** `Decrypt` with the base64 text of the private key and the text the sender transmitted returns the sender's
plaintext. -/
theorem C38_text_roundtrip_partial (C : Crypto) (hA : C.AesLaw) (hdh : C.DhLaw) (ourPriv ephPriv : Key32) (iv pt : Bytes) (hiv : iv.length = 16) :
    ∃ aes mk ct, provisionKeys C (C.dh (C.basePub ourPriv) ephPriv) = .ok (aes, mk) ∧
      encryptCbc C none (some iv) aes pt = .ok ct ∧
      provisionDecryptText C (Spec.base64 ourPriv.bytes) (provisionText (C.basePub ephPriv) (provisionBody C mk iv ct)) = .ok pt := by
  obtain ⟨aes, mk, ct, h1, h2, h3⟩ := C38_roundtrip_partial C hA hdh ourPriv ephPriv iv pt hiv
  refine ⟨aes, mk, ct, h1, h2, ?_⟩
  rw [provisionText_eq, ← b64Enc_spec, provisionDecryptText, b64Dec_b64Enc, b64Dec_b64Enc]
  dsimp only
  rw [unmarshal_marshal (Envelope.json_plain _) (Envelope.json_reads _) (Nat.le_trans (depth_jStruct (n := 0) _ (by simp only [List.mem_cons, List.not_mem_nil, or_false, forall_eq_or_imp, forall_eq, depth_jBytes, and_self])) (by decide))]
  exact h3

/-- **C38 (authentication, whole call).** Whatever the two texts: a plaintext is returned only if they decode to a private key, a public key and a
body as in `C38_authenticated_partial`. -/
theorem C38_text_authenticated_partial (C : Crypto) (privateKey content pt : Bytes) (h : provisionDecryptText C privateKey content = .ok pt) :
    ∃ priv envelope e pub iv ct mac aes mk, b64Dec privateKey = some priv ∧ b64Dec content = some envelope ∧
      unmarshalJson Envelope.ofJson envelope = some e ∧ decodePoint (e.publicKey.getD []) = .ok pub ∧
      e.body = some ((1 :: iv ++ ct) ++ mac) ∧ iv.length = 16 ∧
      provisionKeys C (C.dh pub (sliceToArray 32 priv)) = .ok (aes, mk) ∧
      mac = (C.hmac mk (1 :: iv ++ ct)).bytes ∧ decryptCbc C (some iv) aes ct = .ok pt := by
  unfold provisionDecryptText at h
  cases h1 : b64Dec privateKey with
  | none => rw [h1] at h; cases h
  | some priv =>
    rw [h1] at h; dsimp only at h
    cases h2 : b64Dec content with
    | none => rw [h2] at h; cases h
    | some env =>
      rw [h2] at h; dsimp only at h
      cases h3 : unmarshalJson Envelope.ofJson env with
      | none => rw [h3] at h; cases h
      | some e =>
        rw [h3] at h; dsimp only at h
        obtain ⟨pub, iv, ct, mac, aes, mk, a1, a2, a3, a4, a5, a6⟩ := C38_authenticated_partial C _ _ _ _ h
        refine ⟨priv, env, e, pub, iv, ct, mac, aes, mk, rfl, rfl, h3, a1, ?_, a3, a4, a5, a6⟩
        cases hb : e.body with
        | none => rw [hb] at a2; simp at a2
        | some b => rw [hb] at a2; exact congrArg some a2

/-- **C38 (undecodable text).** Text that is not base64, or not base64 of a JSON object of that form, is an error and never a crash. -/
theorem C38_text_undecodable (C : Crypto) (privateKey content : Bytes)
    (h : b64Dec privateKey = none ∨ b64Dec content = none ∨ ∃ env, b64Dec content = some env ∧ unmarshalJson Envelope.ofJson env = none) :
    ∃ e, provisionDecryptText C privateKey content = .err e := by
  unfold provisionDecryptText
  cases h1 : b64Dec privateKey with
  | none => exact ⟨_, rfl⟩
  | some priv =>
    dsimp only
    cases h2 : b64Dec content with
    | none => exact ⟨_, rfl⟩
    | some env =>
      dsimp only
      cases h3 : unmarshalJson Envelope.ofJson env with
      | none => exact ⟨_, rfl⟩
      | some e =>
        rcases h with h | h | ⟨env', h, h'⟩
        · rw [h1] at h; cases h
        · rw [h2] at h; cases h
        · rw [h2] at h; cases h; rw [h3] at h'; cases h'

/-- The texts "", "e30=" (an empty JSON object) make the call crash; "!" and "bnVsbA" are refused. -/
theorem C38_text_malformed_false (C : Crypto) :
    provisionDecryptText C [] (ascii "e30=") = .panic ∧ provisionDecryptText C [] (ascii "bnVsbA==") = .panic ∧
    provisionDecryptText C [] (ascii "!") = .err .badBase64 ∧ provisionDecryptText C [] (ascii "bnVsbA") = .err .badBase64 ∧
    provisionDecryptText C [] [] = .err .badJson := by
  have e1 : b64Dec (ascii "e30=") = some (ascii "{}") := by decide +kernel
  have e2 : b64Dec (ascii "bnVsbA==") = some (ascii "null") := by decide +kernel
  have e3 : b64Dec (ascii "!") = none := by decide +kernel
  have e4 : b64Dec (ascii "bnVsbA") = none := by decide +kernel
  have e5 : b64Dec [] = some [] := rfl
  have u1 : unmarshalJson Envelope.ofJson (ascii "{}") = some ⟨none, none⟩ := by decide +kernel
  have u2 : unmarshalJson Envelope.ofJson (ascii "null") = some ⟨none, none⟩ := by decide +kernel
  have u3 : unmarshalJson Envelope.ofJson [] = none := by decide +kernel
  refine ⟨?_, ?_, ?_, ?_, ?_⟩
  · simp only [provisionDecryptText, e5, e1, u1]; rfl
  · simp only [provisionDecryptText, e5, e2, u2]; rfl
  · simp only [provisionDecryptText, e5, e3]
  · simp only [provisionDecryptText, e5, e4]
  · simp only [provisionDecryptText, e5, u3]

/-- The hypotheses are met: a concrete call. -/
example : ∃ aes mk ct, provisionKeys Toy.C (Toy.C.dh (Toy.C.basePub (Toy.key 3)) (Toy.key 4)) = .ok (aes, mk) ∧
    encryptCbc Toy.C none (some (List.replicate 16 7)) aes [1, 2, 3] = .ok ct ∧
    provisionDecryptText Toy.C (Spec.base64 (Toy.key 3).bytes) (provisionText (Toy.C.basePub (Toy.key 4))
      (provisionBody Toy.C mk (List.replicate 16 7) ct)) = .ok [1, 2, 3] :=
  C38_text_roundtrip_partial Toy.C Toy.aesLaw Toy.dhLaw _ _ _ _ rfl

end Verif
