import Verif.Proofs.Scalar3
/-
C44: scalar arithmetic modulo the order of the base point, `L25519 = 2^252 + 27742317777372353535851937790883648493`.
-/
namespace Verif.Limb

/-- ScReduce: 64 bytes to the canonical 32-byte encoding of their value modulo the group order, for every input; no
intermediate result overflows 64 bits. -/
theorem C44_reduce (s : List Int) (hl : s.length = 64) (hb : areBytes s) :
    (scReduce s).length = 32 ∧ areBytes (scReduce s) ∧ leVal (scReduce s) = leVal s % L25519 :=
  (scReduce_all s hl hb).2

/-- ScMulAdd: `a*b + c` modulo the group order, canonical, for every three 32-byte strings. -/
theorem C44_mul_add (a b c : List Int) (la : a.length = 32) (lb : b.length = 32) (lc : c.length = 32) (ba : areBytes a)
    (bb : areBytes b) (bc : areBytes c) :
    (scMulAdd a b c).length = 32 ∧ areBytes (scMulAdd a b c) ∧
      leVal (scMulAdd a b c) = (leVal a * leVal b + leVal c) % L25519 :=
  (scMulAdd_all a b c la lb lc ba bb bc).2

/-- Neither overflows before its last step packs the limbs into bytes. -/
theorem C44_no_overflow (s a b c : List Int) (hl : s.length = 64) (hb : areBytes s) (la : a.length = 32)
    (lb : b.length = 32) (lc : c.length = 32) (ba : areBytes a) (bb : areBytes b) (bc : areBytes c) :
    safeRun (scReduceLoad ++ (scReduceFold ++ (scReduceFloor ++ scReduceLast))) (placeL 0 s zeroEnv) ∧
    safeRun (scMulAddLoad ++ (scMulAddProd ++ (scMulAddFold ++ (scMulAddFloor ++ scMulAddLast))))
      (placeL 0 a (placeL 32 b (placeL 160 c zeroEnv))) := by
  refine ⟨(scReduce_all s hl hb).1, ?_⟩
  rw [floor_same, last_same]
  exact (scMulAdd_all a b c la lb lc ba bb bc).1

/-- Hence the top three bits of a result are clear, which the signature format relies on to store the sign bit. -/
theorem C44_top_bits (a b c : List Int) (la : a.length = 32) (lb : b.length = 32) (lc : c.length = 32) (ba : areBytes a)
    (bb : areBytes b) (bc : areBytes c) : leVal (scMulAdd a b c) < 2 ^ 253 := by
  rw [(C44_mul_add a b c la lb lc ba bb bc).2.2]
  have := Int.emod_lt_of_pos (leVal a * leVal b + leVal c) (b := L25519) (by decide)
  have h2 : (L25519 : Int) < 2 ^ 253 := by decide
  omega

example : (List.replicate 64 (255 : Int)).length = 64 ∧ areBytes (List.replicate 64 (255 : Int)) := by unfold areBytes; decide

end Verif.Limb
