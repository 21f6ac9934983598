import Verif.Model.Random
import Verif.Props.Groups2
import Verif.Props.KeyGen
import Verif.Props.Ratchet
/-
C70: what happens when the random source fails.
-/
set_option linter.unusedSimpArgs false
namespace Verif

/-- The source fails a read of `n` bytes. -/
def Fails (n : Nat) (got : Bytes) : Prop := got.length < n

theorem drawOf_fails {got : Bytes} : drawOf got = none ↔ Fails 32 got := by
  simp only [drawOf, readRandom, Fails]
  split
  · rename_i h; simp only [Prod.mk.injEq, decide_eq_true_eq] at h; simp [h.2]
  · rename_i h; simp only [Prod.mk.injEq, decide_eq_false_iff_not] at h; simp [h.2]

/-- **C70 (key pairs).** If the read for a key pair fails, generating an identity key pair, a last-resort prekey, a signed prekey, a group signing key or any of a batch of
prekeys returns an error: no key is made from missing randomness. If it succeeds, the private key is exactly the bytes read, clamped. -/
theorem C70_key_pairs_partial (C : Crypto) (got : Bytes) (rand : Arr 64) (now : Int64) (idPriv : Key32) (id : UInt32) :
    (Fails 32 got → generateKeyPair C (drawOf got) = .err .randFailure ∧ generateIdentityKeyPair C (drawOf got) = .err .randFailure ∧
      generateLastResortKey C (drawOf got) = .err .randFailure ∧ generateSignedPreKey C (drawOf got) rand now idPriv id = .err .randFailure ∧
      generateSenderSigningKey C got = .err .randFailure ∧
      (∀ (rng : Nat → Option Key32) (start count : Int) (pos n : Nat), rng (pos + n) = drawOf got → (n : Int) < count - start + 1 →
        generatePreKeys C rng start count pos = .err .randFailure)) ∧
    (¬ Fails 32 got → ∃ r : Key32, r.bytes = got.take 32 ∧ generateKeyPair C (drawOf got) = .ok ⟨C.basePub (clamp r), some (clamp r)⟩) := by
  constructor
  · intro h
    have hd := drawOf_fails.2 h
    simp only [generateSenderSigningKey, hd, generateKeyPair, generateIdentityKeyPair, generateIdPair, generateLastResortKey, generateSignedPreKey, Res.map, true_and]
    intro rng start count pos n hr hn
    exact C37_random_failure C rng start count pos n hr hn
  · intro h
    have hl : 32 ≤ got.length := by simp only [Fails] at h; omega
    refine ⟨sliceToArray 32 got, ?_, ?_⟩
    · simp only [sliceToArray, copyInto]
      have : 32 - got.length = 0 := by omega
      simp [this]
    · simp only [drawOf, readRandom]
      have : ¬ got.length < 32 := by omega
      simp only [this, decide_false, generateKeyPair]

/-- **C70 (sessions).** If the random source fails while a bundle is being processed (base key or ratchet key), the call does not succeed, and sessions, identities and prekeys
are untouched. -/
theorem C70_bundle_partial (E : Env) (st : Store) (pos : Nat) (a : Addr) (b : Bundle) (h : E.rng pos = none ∨ E.rng (pos + 1) = none) :
    (∀ u, (st.processBundle E pos a b).1 ≠ .ok u) ∧ (st.processBundle E pos a b).2.1 = st := by
  have hrec : ∀ r spk, (∀ u, (buildFromBundle E pos a r b spk).1 ≠ .ok u) ∧ (buildFromBundle E pos a r b spk).2.2.2 = [] := by
    intro r spk
    unfold buildFromBundle
    cases hr : E.rng pos with
    | none => simp [generateKeyPair]
    | some x =>
      have h1 : E.rng (pos + 1) = none := by
        rcases h with h | h
        · rw [hr] at h; cases h
        · exact h
      rw [h1]
      simp only [generateKeyPair]
      split <;> simp
  simp only [Store.processBundle, Store.processBundleTrace]
  cases checkBundle E st.identities a b with
  | err e => simp [finish, Store.applyAll]
  | panic => simp [finish, Store.applyAll]
  | ok spk =>
    simp only
    cases st.load a with
    | err e => simp [finish, Store.applyAll]
    | panic => simp [finish, Store.applyAll]
    | ok r =>
      simp only
      obtain ⟨h1, h2⟩ := hrec r spk
      generalize buildFromBundle E pos a r b spk = o at *
      obtain ⟨res, r', p', effs⟩ := o
      simp only at h1 h2 ⊢
      subst h2
      simp only [finish, Store.applyAll]
      exact ⟨h1, trivial⟩

/-- **C70 (signatures).** A signature made while the random source fails is still a valid signature; and when the read succeeds, the signature is the one made with exactly the 64
bytes that were read. -/
theorem C70_signature (C : Crypto) (hS : C.SigLaw) (k : Key32) (hk : IsClamped k) (message got : Bytes) :
    C.verify (C.basePub k) message (calculateSignatureFrom C k message got) = true ∧
      ∀ r : Arr 64, got.take 64 = r.bytes → calculateSignatureFrom C k message got = C.sign k message r := by
  refine ⟨hS k message _ hk, fun r hr => ?_⟩
  have : (⟨(readRandom 64 got).1, copyInto_length 64 got⟩ : Arr 64) = r := by
    obtain ⟨b, hb⟩ := r
    simp only at hr
    have hl : b.length = 64 := hb
    have hg : 64 ≤ got.length := by rw [← hr, List.length_take] at hl; omega
    simp only [readRandom, copyInto, hr, Arr.mk.injEq]
    simp [hg]
  rw [calculateSignatureFrom, this]

/-- The chain a group session starts from when the read for its chain key delivers nothing: 32 zero bytes. -/
def zeroChain : SChainKey := ⟨0, List.replicate 32 0⟩

/-- **C70 is false for group sessions.**  If only the read for the chain key (or, likewise, nothing but the reads for chain key and key id) fails, `Create` reports success and
stores the session; its chain key is 32 zero bytes, and everything that is ever encrypted with it, message after message, can be decrypted by anyone who knows nothing but this program:
the keys are those of the fixed chain `zeroChain`. -/
theorem C70_group_chain_false (C : Crypto) (hA : C.AesLaw) (S : Ser SKStruct) (hSer : StdSK S) (st : GStore) (n : SenderKeyName) (got1 got2 : Bytes) (h1 : ¬ Fails 32 got1)
    (hnew : st.load n = .ok none) :
    ∃ skdm st', st.createFrom C got1 got2 [] n = (.ok skdm, st') ∧ skdm.chainKey = some (List.replicate 32 0) ∧
      ∀ xs : List (Bytes × Arr 64), (∀ x ∈ xs, x.1.length < 2 ^ 63) → ∀ i x, xs[i]? = some x →
        ∃ m body, (groupSend C S n st' xs).1[i]? = some (.ok m) ∧ m.ciphertext = some body ∧
          decryptCbc C (some (groupKey C (zeroChain.iter C i)).iv) (groupKey C (zeroChain.iter C i)).cipherKey body = .ok x.1 := by
  obtain ⟨r, hr⟩ : ∃ r, drawOf got1 = some r := by
    cases hd : drawOf got1 with
    | none => exact absurd (drawOf_fails.1 hd) h1
    | some r => exact ⟨r, rfl⟩
  have hz : (generateSenderKey []).bytes = List.replicate 32 0 := rfl
  refine ⟨newSKDM (generateSenderKeyID got2) 0 (List.replicate 32 0) (C.basePub (clamp r)),
    st.save n (GRec.setState (generateSenderKeyID got2) 0 (List.replicate 32 0) ⟨C.basePub (clamp r), some (clamp r)⟩), ?_, rfl, ?_⟩
  · simp only [GStore.createFrom, GStore.create, hnew, groupCreate, hr, generateKeyPair, hz]
  · intro xs hxs i x hx
    have hl : (st.save n (GRec.setState (generateSenderKeyID got2) 0 (List.replicate 32 0) ⟨C.basePub (clamp r), some (clamp r)⟩)).load n =
        .ok (some [⟨[], generateSenderKeyID got2, zeroChain, ⟨C.basePub (clamp r), some (clamp r)⟩⟩]) :=
      GStore.load_save_loaded _ _ _ (by intro s hs; simp [GRec.setState] at hs; subst hs; exact ⟨_, rfl⟩)
    obtain ⟨-, h2, -⟩ := C32_consecutive C S hSer n _ _ _ (clamp r) hl rfl xs hxs
    obtain ⟨m, body, content, e1, -, -, e2, e3, -⟩ := h2 i x hx
    exact ⟨m, body, e1, e2, decrypt_encryptCbc C hA _ _ _ e3⟩

/-- **C70 (groups, what holds).** When all three reads succeed, the stored chain key is exactly the bytes read and the signing key the clamped bytes read; when the read for the
signing key fails, `Create` returns an error and stores nothing. -/
theorem C70_group_partial (C : Crypto) (st : GStore) (n : SenderKeyName) (got1 got2 got3 : Bytes) (hnew : st.load n = .ok none) :
    (Fails 32 got1 → st.createFrom C got1 got2 got3 n = (.err .randFailure, st)) ∧
    (¬ Fails 32 got1 → ¬ Fails 4 got2 → ¬ Fails 32 got3 → ∃ (r : Key32) (skdm : SKDMsg) (st' : GStore), r.bytes = got1.take 32 ∧
      st.createFrom C got1 got2 got3 n = (.ok skdm, st') ∧ skdm.chainKey = some (got3.take 32) ∧ skdm.signatureKey = C.basePub (clamp r) ∧
      st'.load n = .ok (some [⟨[], skdm.id, ⟨0, got3.take 32⟩, ⟨C.basePub (clamp r), some (clamp r)⟩⟩])) := by
  constructor
  · intro h
    simp only [GStore.createFrom, GStore.create, hnew, groupCreate, drawOf_fails.2 h, generateKeyPair]
  · intro h1 h2 h3
    have hk : ∀ g : Bytes, ¬ Fails 32 g → copyInto 32 g = g.take 32 := by
      intro g hg
      have : 32 - g.length = 0 := by simp only [Fails] at hg; omega
      simp [copyInto, this]
    have hd : drawOf got1 = some (sliceToArray 32 got1) := by
      have : ¬ got1.length < 32 := by simpa [Fails] using h1
      simp only [drawOf, readRandom, this, decide_false]
    have hz : (generateSenderKey got3).bytes = got3.take 32 := hk got3 h3
    refine ⟨sliceToArray 32 got1, newSKDM (generateSenderKeyID got2) 0 (got3.take 32) (C.basePub (clamp (sliceToArray 32 got1))),
      st.save n (GRec.setState (generateSenderKeyID got2) 0 (got3.take 32) ⟨C.basePub (clamp (sliceToArray 32 got1)), some (clamp (sliceToArray 32 got1))⟩), hk got1 h1, ?_, rfl, rfl, ?_⟩
    · simp only [GStore.createFrom, GStore.create, hnew, groupCreate, hd, generateKeyPair, hz]
    · exact GStore.load_save_loaded _ _ _ (by intro s hs; simp [GRec.setState] at hs; subst hs; exact ⟨_, rfl⟩)

/-- **C70 (ids).** A registration id or group key id is the little-endian number of the four bytes read; when the read fails it is 0, and nothing tells. -/
theorem C70_ids (got : Bytes) :
    (Fails 4 got → generateRegistrationID got = 0 ∧ generateSenderKeyID got = 0) ∧
    (∀ b0 b1 b2 b3 rest, got = b0 :: b1 :: b2 :: b3 :: rest →
      (generateRegistrationID got).toNat = b0.toNat + 256 * b1.toNat + 65536 * b2.toNat + 16777216 * b3.toNat) := by
  constructor
  · intro h
    have h : got.length < 4 := h
    simp only [generateSenderKeyID, generateRegistrationID, readRandom, h, decide_true, and_self]
  · rintro b0 b1 b2 b3 rest rfl
    have e : (b0 :: b1 :: b2 :: b3 :: rest).length < 4 ↔ False := by simp
    have := b0.toNat_lt; have := b1.toNat_lt; have := b2.toNat_lt; have := b3.toNat_lt
    simp only [generateRegistrationID, readRandom, e, decide_false, copyInto, List.take_succ_cons, List.take_zero]
    simp
    omega

section
open Toy
set_option maxRecDepth 100000
/-- Non-vacuity: a run of `Create` with a failing chain-key read and one with working reads. -/
example : GStore.empty.load gName = .ok none ∧ ¬ Fails 32 (List.replicate 32 5) ∧ Fails 32 [] ∧
    ((GStore.empty.createFrom C (List.replicate 32 5) [1, 2, 3, 4] [] gName).1.isOk = true) ∧ generateRegistrationID [1, 2, 3, 4] = 0x04030201 := by
  refine ⟨rfl, by simp [Fails], by simp [Fails], by decide +kernel, by decide +kernel⟩
end

end Verif
