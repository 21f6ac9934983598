import Verif.Model.Keys
import Verif.Proofs.Basic
/- Key derivation always succeeds and returns keys of the right sizes. -/
namespace Verif

theorem hkdfBlocks_length (C : Crypto) (prk info : Bytes) (n : Nat) (prev : Bytes) (i : Nat) :
    (hkdfBlocks C prk info n prev i).length = 32 * n := by
  induction n generalizing prev i with
  | zero => rfl
  | succ n ih => simp [hkdfBlocks, ih, Arr.len]; omega

/-- Below the limit of 255 blocks derivation succeeds with exactly `n` bytes. -/
theorem deriveSecrets_ok (C : Crypto) (ikm : Bytes) (salt : Option Bytes) (info : Bytes) {n : Nat}
    (h : n ≤ 255 * 32) : ∃ b, deriveSecrets C ikm salt info n = .ok b ∧ b.length = n := by
  unfold deriveSecrets
  rw [if_neg (by omega)]
  refine ⟨_, rfl, ?_⟩
  simp [hkdfBlocks_length]; omega

theorem msgKeys_ok (C : Crypto) (c : ChainKey) :
    (c.msgKeys C).cipherKey.length = 32 ∧ (c.msgKeys C).macKey.length = 32 ∧
    (c.msgKeys C).iv.length = 16 ∧ (c.msgKeys C).index = c.index := by
  obtain ⟨b, hb, hl⟩ := deriveSecrets_ok C (c.baseMaterial C [0x01]) none (ascii "WhisperMessageKeys")
    (n := 80) (by omega)
  unfold ChainKey.msgKeys
  rw [hb]; simp; omega

@[simp] theorem msgKeys_index (C : Crypto) (c : ChainKey) : (c.msgKeys C).index = c.index := (msgKeys_ok C c).2.2.2
@[simp] theorem next_index (C : Crypto) (c : ChainKey) : (c.next C).index = c.index + 1 := rfl

theorem ofSecrets_len {b : Bytes} (h : b.length = 64) :
    (SessionKeys.ofSecrets b).root.length = 32 ∧ (SessionKeys.ofSecrets b).chain.key.length = 32 ∧
    (SessionKeys.ofSecrets b).chain.index = 0 := by
  simp [SessionKeys.ofSecrets]; omega

theorem createChain_ok (C : Crypto) (root : Bytes) (their : Key32) (our : KeyPair) {p : Key32}
    (h : our.priv = some p) :
    ∃ k, createChain C root their our = .ok k ∧ k.root.length = 32 ∧ k.chain.key.length = 32 ∧ k.chain.index = 0 := by
  obtain ⟨b, hb, hl⟩ := deriveSecrets_ok C (C.dh their p).bytes (some root) (ascii "WhisperRatchet") (n := 64) (by omega)
  refine ⟨SessionKeys.ofSecrets b, ?_, ofSecrets_len hl⟩
  simp [createChain, h, hb]

theorem createChain_none (C : Crypto) (root : Bytes) (their : Key32) (our : KeyPair)
    (h : our.priv = none) : createChain C root their our = .panic := by
  simp [createChain, h]

/-- The value of `createChain` as a total function of the shared secret. -/
def kdfRoot (C : Crypto) (root : Bytes) (secret : Key32) : SessionKeys :=
  match deriveSecrets C secret.bytes (some root) (ascii "WhisperRatchet") 64 with
  | .ok b => SessionKeys.ofSecrets b
  | _ => ⟨[], ⟨[], 0⟩⟩

theorem createChain_eq (C : Crypto) (root : Bytes) (their : Key32) (our : KeyPair) {p : Key32}
    (h : our.priv = some p) : createChain C root their our = .ok (kdfRoot C root (C.dh their p)) := by
  obtain ⟨b, hb, hl⟩ := deriveSecrets_ok C (C.dh their p).bytes (some root) (ascii "WhisperRatchet") (n := 64) (by omega)
  simp [createChain, h, hb, kdfRoot]

@[simp] theorem kdfRoot_index (C : Crypto) (root : Bytes) (s : Key32) : (kdfRoot C root s).chain.index = 0 := by
  unfold kdfRoot; split <;> rfl

theorem deriveSession_ok (C : Crypto) (ikm : Bytes) (salt : Option Bytes) (info : Bytes) :
    ∃ k, (deriveSecrets C ikm salt info 64).map SessionKeys.ofSecrets = .ok k ∧
      k.root.length = 32 ∧ k.chain.key.length = 32 ∧ k.chain.index = 0 := by
  obtain ⟨b, hb, hl⟩ := deriveSecrets_ok C ikm salt info (n := 64) (by omega)
  exact ⟨SessionKeys.ofSecrets b, by rw [hb]; rfl, ofSecrets_len hl⟩

theorem calculateSenderSession_ok (C : Crypto) (p : SenderParams) :
    ∃ k, calculateSenderSession C p = .ok k ∧ k.root.length = 32 ∧ k.chain.key.length = 32 ∧ k.chain.index = 0 :=
  deriveSession_ok C _ _ _

theorem calculateReceiverSession_ok (C : Crypto) (p : ReceiverParams) :
    ∃ k, calculateReceiverSession C p = .ok k ∧ k.root.length = 32 ∧ k.chain.key.length = 32 ∧ k.chain.index = 0 :=
  deriveSession_ok C _ _ _

end Verif
