import Verif.Proofs.Scalar
/-
Scalar reduction: the pieces put together.
-/
namespace Verif.Limb
set_option maxRecDepth 100000
set_option exponentiation.threshold 600

theorem floor_same : scMulAddFloor = scReduceFloor := rfl
theorem last_same : scMulAddLast = scReduceLast := rfl
theorem pack_same : scMulAddPack = scReducePack := rfl

/-- After the floor carries. -/
def floorPost : List (Nat × Int × Int) :=
  ((List.range 12).map fun i => (100 + i, 0, 2097151)) ++ [(112, -1, 0)] ++ ((List.range 11).map fun i => (113 + i, 0, 0))
/-- After the last carries. -/
def lastPost : List (Nat × Int × Int) := ((List.range 11).map fun i => (100 + i, 0, 2097151)) ++ [(111, -1, 2097152)]

theorem red_floor : boundsAll (scReduceLoad ++ (scReduceFold ++ scReduceFloor)) (bytesBd 0 64) floorPost = true := by
  decide +kernel
theorem red_last : boundsAll (scReduceLoad ++ (scReduceFold ++ (scReduceFloor ++ scReduceLast))) (bytesBd 0 64) lastPost
    = true := by decide +kernel
theorem ma_floor : boundsAll (scMulAddLoad ++ (scMulAddProd ++ (scMulAddFold ++ scReduceFloor)))
    (bytesBd 0 32 ++ (bytesBd 32 32 ++ bytesBd 160 32)) floorPost = true := by decide +kernel
theorem ma_last : boundsAll (scMulAddLoad ++ (scMulAddProd ++ (scMulAddFold ++ (scReduceFloor ++ scReduceLast))))
    (bytesBd 0 32 ++ (bytesBd 32 32 ++ bytesBd 160 32)) lastPost = true := by decide +kernel

theorem red_fold_wp : (wp L25519 scReduceFold (lin21 100 24)).map (Poly.norm L25519)
    = some (Poly.norm L25519 (Poly.scale L25519 1 (lin21 100 24))) := by decide +kernel
theorem ma_fold_wp : (wp L25519 scMulAddFold (lin21 100 24)).map (Poly.norm L25519)
    = some (Poly.norm L25519 (Poly.scale L25519 1 (lin21 100 24))) := by decide +kernel
theorem floor_wp : wp 0 scReduceFloor (lin21 100 24) = some (lin21 100 24) := by decide +kernel
theorem last_wp : wp 0 scReduceLast (lin21 100 12)
    = some (lin21 100 12 ++ [(113, -27742317777372353535851937790883648493)]) := by decide +kernel
theorem prod_wp : (wp 0 scMulAddProd (lin21 100 24)).map (Poly.norm 0)
    = (Poly.mul 0 (lin21 200 12) (lin21 212 12)).map (fun q => Poly.norm 0 (Poly.add 0 (lin21 224 12) q)) := by
  decide +kernel
theorem prod_some : (Poly.mul 0 (lin21 200 12) (lin21 212 12)).isSome = true := by decide +kernel

end Verif.Limb
