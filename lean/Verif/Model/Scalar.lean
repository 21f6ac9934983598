import Verif.Model.Field
/-
ecc/edwards25519/edwards25519.go: arithmetic modulo the order of the base point.
-/
namespace Verif.Limb

/-- edwards25519.go:1323-1639 `ScReduce`: 64 bytes in, 32 bytes out. -/
def scReduceP : Prog := scReduceLoad ++ (scReduceFold ++ (scReduceFloor ++ (scReduceLast ++ scReducePack)))
/-- edwards25519.go:1323 `ScReduce` as a function. -/
def scReduce (s : List Int) : List Int := (run scReduceP (placeL 0 s zeroEnv)).list 64 32

/-- edwards25519.go:892-1315 `ScMulAdd`: three 32-byte scalars in, 32 bytes out. -/
def scMulAddP : Prog :=
  scMulAddLoad ++ (scMulAddProd ++ (scMulAddFold ++ (scMulAddFloor ++ (scMulAddLast ++ scMulAddPack))))
/-- edwards25519.go:892 `ScMulAdd` as a function. -/
def scMulAdd (a b c : List Int) : List Int :=
  (run scMulAddP (placeL 0 a (placeL 32 b (placeL 160 c zeroEnv)))).list 64 32

end Verif.Limb
