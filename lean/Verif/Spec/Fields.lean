import Verif.Spec.Mac
/-
The protobuf wire format of a message body, independent of the model: a body is a sequence of fields, each a number with a
wire type and a value, in any order, with any repetition.
-/
namespace Verif.Spec

/-- One field on the wire. -/
inductive WireField where
  /-- wire type 0 -/
  | num (tag : Nat) (value : Nat)
  /-- wire type 2 -/
  | str (tag : Nat) (value : Bytes)
  /-- wire type 1 -/
  | fixed64 (tag : Nat) (value : Bytes)
  /-- wire type 5 -/
  | fixed32 (tag : Nat) (value : Bytes)

/-- The bytes of a field. -/
def WireField.encode : WireField → Bytes
  | .num t n => varint (t * 8) ++ varint n
  | .str t b => varint (t * 8 + 2) ++ varint b.length ++ b
  | .fixed64 t b => varint (t * 8 + 1) ++ b
  | .fixed32 t b => varint (t * 8 + 5) ++ b

/-- Field numbers below 2^29 and values of the size their wire type allows. -/
def WireField.valid : WireField → Prop
  | .num t n => t < 2 ^ 29 ∧ n < 2 ^ 64
  | .str t b => t < 2 ^ 29 ∧ b.length < 2 ^ 64
  | .fixed64 t b => t < 2 ^ 29 ∧ b.length = 8
  | .fixed32 t b => t < 2 ^ 29 ∧ b.length = 4

/-- The bytes of a body. -/
def encodeBody (l : List WireField) : Bytes := l.flatMap WireField.encode

/-- The last string with a field number, if there is one. -/
def lastStr (tag : Nat) : List WireField → Option Bytes
  | [] => none
  | f :: rest =>
    match lastStr tag rest, f with
    | some b, _ => some b
    | none, .str t b => if t = tag then some b else none
    | none, _ => none

/-- The last number with a field number, if there is one. -/
def lastNum (tag : Nat) : List WireField → Option Nat
  | [] => none
  | f :: rest =>
    match lastNum tag rest, f with
    | some n, _ => some n
    | none, .num t n => if t = tag then some n else none
    | none, _ => none

/-- The 32-bit value of a numeric field: the low 32 bits of its last occurrence, 0 without one. -/
def u32Field (tag : Nat) (l : List WireField) : UInt32 := UInt32.ofNat ((lastNum tag l).getD 0)

end Verif.Spec
