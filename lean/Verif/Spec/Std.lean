import Verif.Model.Proto
import Verif.Model.JsonTypes
/-
Specification vocabulary: the serializers the library ships (serialize/proto.go and serialize/json.go).
-/
namespace Verif

/-- A message serializer of the library: protobuf or JSON. -/
def StdSM (S : Ser SMStruct) : Prop := S = protoSM ∨ S = jsonSM
/-- The serializers for messages and prekey messages of one `serialize.Serializer` object. -/
def Std (S : Ser SMStruct) (P : Ser PKStruct) : Prop := (S = protoSM ∧ P = protoPK) ∨ (S = jsonSM ∧ P = jsonPK)
/-- A sender-key message serializer of the library. -/
def StdSK (S : Ser SKStruct) : Prop := S = protoSK ∨ S = jsonSK
/-- A distribution message serializer of the library. -/
def StdSKD (S : Ser SKDStruct) : Prop := S = protoSKD ∨ S = jsonSKD

theorem Std.sm {S : Ser SMStruct} {P : Ser PKStruct} (h : Std S P) : StdSM S := h.imp And.left And.left

end Verif
