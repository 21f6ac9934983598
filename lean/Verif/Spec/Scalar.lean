import Verif.Spec.Field
/- The order of the base point. -/
namespace Verif.Limb

/-- "The scalars are GF(2^252 + 27742317777372353535851937790883648493)" (edwards25519.go:881). -/
def L25519 : Nat := 2 ^ 252 + 27742317777372353535851937790883648493

end Verif.Limb
