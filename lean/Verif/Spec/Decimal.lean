import Verif.Model.Basic
/- Specification vocabulary: reading decimal digits. -/
namespace Verif

/-- Value of a string of ASCII digits, most significant first. -/
def decVal (b : Bytes) : Nat := b.foldl (fun acc x => acc * 10 + (x.toNat - 48)) 0

/-- An ASCII decimal digit. -/
def isDigit (x : UInt8) : Prop := 48 ≤ x.toNat ∧ x.toNat ≤ 57

/-- Big-endian value of a byte string. -/
def beVal (b : Bytes) : Nat := b.foldl (fun acc x => acc * 256 + x.toNat) 0

end Verif
