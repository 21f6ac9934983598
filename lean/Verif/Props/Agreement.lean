import Verif.Proofs.Keys
import Verif.Proofs.Toy
/-
C01, C02: both parties of a key agreement derive the same keys.
-/
namespace Verif

/-- **C01.** For every choice of private keys, initiator and responder derive the same root
key and the same chain key, with or without a one-time prekey; the derived keys have 32 bytes
and the chain starts at index 0. -/
theorem C01_x3dh_agreement (C : Crypto) (hdh : C.DhLaw)
    (idA baseA idB spkB : Key32) (otB : Option Key32) :
    ∃ k : SessionKeys,
      calculateSenderSession C
        { ourIdentity := ⟨C.basePub idA, idA⟩, ourBasePriv := baseA, theirIdentity := C.basePub idB,
          theirSignedPreKey := C.basePub spkB, theirOneTime := otB.map C.basePub } = .ok k ∧
      calculateReceiverSession C
        { ourIdentity := ⟨C.basePub idB, idB⟩, ourSignedPreKeyPriv := spkB, ourOneTimePriv := otB,
          theirBase := C.basePub baseA, theirIdentity := C.basePub idA } = .ok k ∧
      k.root.length = 32 ∧ k.chain.key.length = 32 ∧ k.chain.index = 0 := by
  obtain ⟨k, hk, h1, h2, h3⟩ := calculateSenderSession_ok C
    { ourIdentity := ⟨C.basePub idA, idA⟩, ourBasePriv := baseA, theirIdentity := C.basePub idB,
      theirSignedPreKey := C.basePub spkB, theirOneTime := otB.map C.basePub }
  refine ⟨k, hk, ?_, h1, h2, h3⟩
  rw [← hk]
  cases otB with
  | none => simp only [calculateSenderSession, calculateReceiverSession, Option.map_none,
              hdh spkB idA, hdh idB baseA, hdh spkB baseA]
  | some o => simp only [calculateSenderSession, calculateReceiverSession, Option.map_some,
              hdh spkB idA, hdh idB baseA, hdh spkB baseA, hdh o baseA]

/-- The law is satisfiable, and the agreed keys depend on the parties' keys: changing the base
key or dropping the one-time prekey changes them. -/
example : Toy.C.DhLaw ∧
    (let p (base : UInt8) (ot : Option Key32) : SenderParams :=
        { ourIdentity := Toy.idPair 1, ourBasePriv := Toy.key base, theirIdentity := Toy.key 3,
          theirSignedPreKey := Toy.key 4, theirOneTime := ot }
     calculateSenderSession Toy.C (p 2 (some (Toy.key 5))) ≠ calculateSenderSession Toy.C (p 9 (some (Toy.key 5))) ∧
     calculateSenderSession Toy.C (p 2 (some (Toy.key 5))) ≠ calculateSenderSession Toy.C (p 2 none)) :=
  ⟨Toy.dhLaw, by decide +kernel⟩

/-- The secret material of C01 pinned down: both sides feed the KDF exactly
`FF^32 ‖ DH(identityA, signedB) ‖ DH(baseA, identityB) ‖ DH(baseA, signedB) [‖ DH(baseA, oneTimeB)]`
with no salt and the info string "WhisperText", and split 64 bytes in halves. -/
theorem C01_x3dh_transcript (C : Crypto) (p : SenderParams) :
    calculateSenderSession C p =
      (deriveSecrets C
        (List.replicate 32 0xFF ++ (C.dh p.theirSignedPreKey p.ourIdentity.priv).bytes
          ++ (C.dh p.theirIdentity p.ourBasePriv).bytes ++ (C.dh p.theirSignedPreKey p.ourBasePriv).bytes
          ++ (p.theirOneTime.elim [] fun k => (C.dh k p.ourBasePriv).bytes)) none
        (ascii "WhisperText") 64).map fun b => ⟨b.take 32, ⟨b.drop 32, 0⟩⟩ := by
  unfold calculateSenderSession
  cases p.theirOneTime <;> simp [discontinuity] <;> rfl

/-! ### C02 -/

/-- Mirrored symmetric parameters of a party with private keys `id`, `base`. -/
def symParams (C : Crypto) (id base idOther baseOther : Key32) : SymmetricParams :=
  { ourBasePub := C.basePub base, ourBasePriv := base, ourIdentity := ⟨C.basePub id, id⟩,
    theirBase := C.basePub baseOther, theirIdentity := C.basePub idOther }

/-- What both must derive: the X3DH keys with the elected sender in the initiator's place. -/
theorem symmetric_sender (C : Crypto) (hdh : C.DhLaw) (idA baseA idB baseB : Key32)
    (h : isSender (C.basePub baseA) (C.basePub baseB) = true)
    (h' : isSender (C.basePub baseB) (C.basePub baseA) = false) :
    ∃ k, calculateSymmetricSession C (symParams C idA baseA idB baseB) = .ok k ∧
         calculateSymmetricSession C (symParams C idB baseB idA baseA) = .ok k := by
  obtain ⟨k, hs, hr, _⟩ := C01_x3dh_agreement C hdh idA baseA idB baseB none
  refine ⟨k, ?_, ?_⟩
  · simp only [calculateSymmetricSession, symParams, h, if_true]; exact hs
  · simp only [calculateSymmetricSession, symParams, h']; exact hr

/-- **C02, partial.** The two parties agree whenever their base public keys differ within their
first three bytes (then the comparison elects exactly one sender).  Missing: base keys that
agree on the first three bytes, for which the claim is false (below). -/
theorem C02_symmetric_agreement_partial (C : Crypto) (hdh : C.DhLaw) (idA baseA idB baseB : Key32)
    (hne : (C.basePub baseA).bytes.take 3 ≠ (C.basePub baseB).bytes.take 3) :
    ∃ k, calculateSymmetricSession C (symParams C idA baseA idB baseB) = .ok k ∧
         calculateSymmetricSession C (symParams C idB baseB idA baseA) = .ok k := by
  have hbe : be32 (serPub (C.basePub baseA)) ≠ be32 (serPub (C.basePub baseB)) := by
    generalize C.basePub baseA = ka at hne
    generalize C.basePub baseB = kb at hne
    obtain ⟨a, ha⟩ := ka
    obtain ⟨b, hb⟩ := kb
    match a, b, ha, hb with
    | a0 :: a1 :: a2 :: ar, b0 :: b1 :: b2 :: br, _, _ =>
      simp only [be32, serPub, List.take_succ_cons, List.take_zero, List.foldl_cons, List.foldl_nil] at hne ⊢
      intro he
      have := a0.toNat_lt; have := a1.toNat_lt; have := a2.toNat_lt
      have := b0.toNat_lt; have := b1.toNat_lt; have := b2.toNat_lt
      apply hne
      have e0 : a0.toNat = b0.toNat := by omega
      have e1 : a1.toNat = b1.toNat := by omega
      have e2 : a2.toNat = b2.toNat := by omega
      rw [UInt8.toNat_inj.1 e0, UInt8.toNat_inj.1 e1, UInt8.toNat_inj.1 e2]
  rcases Nat.lt_or_gt_of_ne hbe with h | h
  · exact symmetric_sender C hdh idA baseA idB baseB (by simp [isSender, h]) (by simp [isSender]; omega)
  · obtain ⟨k, h1, h2⟩ := symmetric_sender C hdh idB baseB idA baseA (by simp [isSender, h]) (by simp [isSender]; omega)
    exact ⟨k, h2, h1⟩

example : (Toy.C.basePub (Toy.key 3)).bytes.take 3 ≠ (Toy.C.basePub (Toy.key 4)).bytes.take 3 := by decide

/-- **C02 is false as stated.** When the base keys agree on their first three bytes both
parties act as receiver and derive different keys: there are primitives satisfying the
Diffie–Hellman law and different base keys for which the results differ. -/
theorem C02_symmetric_agreement_false :
    ∃ (C : Crypto), C.DhLaw ∧ ∃ idA baseA idB baseB : Key32, baseA ≠ baseB ∧
      calculateSymmetricSession C (symParams C idA baseA idB baseB) ≠
      calculateSymmetricSession C (symParams C idB baseB idA baseA) :=
  ⟨Toy.C, Toy.dhLaw, Toy.key 1, Toy.key 2, Toy.key 3,
    ⟨[2,2,2] ++ List.replicate 29 7, by simp⟩, by decide, by decide +kernel⟩

/-- Cause of the failure, for every instance: with equal leading bytes neither party is elected. -/
theorem C02_tie_elects_nobody (a b : Key32) (h : a.bytes.take 3 = b.bytes.take 3) :
    isSender a b = false ∧ isSender b a = false := by
  have : be32 (serPub a) = be32 (serPub b) := by simp [be32, serPub, h]
  simp [isSender, this]

end Verif
