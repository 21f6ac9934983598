import Verif.Model.Crypto
/-
What the MAC of a session message is computed over (serialised identity keys, version digit, protobuf body),
written directly from the wire format, independently of the model's serializer.
-/
namespace Verif.Spec

/-- Base-128 varint, least significant group first. -/
def varint (n : Nat) : Bytes :=
  if n < 128 then [UInt8.ofNat n] else UInt8.ofNat (n % 128 + 128) :: varint (n / 128)
termination_by n
decreasing_by omega

/-- The authenticated content of a message: both identity keys (type byte 5 and 32 bytes each), the version
as a decimal digit, then the fields ratchet key (1), counter (2), previous counter (3), ciphertext (4). -/
def macInput (senderIdentity receiverIdentity : Key32) (ratchetKey ciphertext : Bytes) (counter previous : UInt32) : Bytes :=
  [5] ++ senderIdentity.bytes ++ [5] ++ receiverIdentity.bytes ++ [51] ++
  [0x0A] ++ varint ratchetKey.length ++ ratchetKey ++
  [0x10] ++ varint counter.toNat ++
  [0x18] ++ varint previous.toNat ++
  [0x22] ++ varint ciphertext.length ++ ciphertext

/-- The base64 alphabet. -/
def base64Alphabet : Bytes := ascii "ABCDEFGHIJKLMNOPQRSTUVWXYZabcdefghijklmnopqrstuvwxyz0123456789+/"

/-- One base64 digit. -/
def digit64 (n : Nat) : UInt8 := base64Alphabet.getD n 0

/-- Decimal digits, most significant first, without leading zeros. -/
def decimal (n : Nat) : Bytes :=
  if n < 10 then [UInt8.ofNat (48 + n)] else decimal (n / 10) ++ [UInt8.ofNat (48 + n % 10)]
termination_by n
decreasing_by omega

/-- Standard base64 with padding: each three bytes are read as a 24-bit number and written as four 6-bit digits. -/
def base64 : Bytes → Bytes
  | [] => []
  | [a] => let n := a.toNat * 65536
    [n / 262144, n / 4096 % 64].map digit64 ++ ascii "=="
  | [a, b] => let n := a.toNat * 65536 + b.toNat * 256
    [n / 262144, n / 4096 % 64, n / 64 % 64].map digit64 ++ ascii "="
  | a :: b :: c :: s => let n := a.toNat * 65536 + b.toNat * 256 + c.toNat
    [n / 262144, n / 4096 % 64, n / 64 % 64, n % 64].map digit64 ++ base64 s

/-- The same content with the JSON serializer: the two identity keys, the version digit, then the JSON object in which the version is 0
and there is no MAC yet. -/
def jsonMacInput (senderIdentity receiverIdentity : Key32) (ratchetKey ciphertext : Bytes) (counter previous : UInt32) : Bytes :=
  [5] ++ senderIdentity.bytes ++ [5] ++ receiverIdentity.bytes ++ ascii "3" ++
  ascii "{\"RatchetKey\":\"" ++ base64 ratchetKey ++ ascii "\",\"Counter\":" ++ decimal counter.toNat ++
  ascii ",\"PreviousCounter\":" ++ decimal previous.toNat ++ ascii ",\"CipherText\":\"" ++ base64 ciphertext ++
  ascii "\",\"Version\":0,\"Mac\":null}"

end Verif.Spec
