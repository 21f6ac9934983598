import Verif.Model.Protocol
/-
When a parsed message counts as well formed, in terms of its fields only.
-/
namespace Verif.Spec

/-- `enc` is an encoding of the key `k`: a type byte 5 followed by the key; the code takes the first 32 bytes after the type byte and
fills up with zeros when there are fewer. -/
def EncodesKey (enc : Bytes) (k : Key32) : Prop := ∃ rest, enc = 5 :: rest ∧ k.bytes = (rest ++ List.replicate 32 0).take 32

/-- The two protocol versions in use. -/
def VersionOk (v : Int) : Prop := v = 2 ∨ v = 3

end Verif.Spec
