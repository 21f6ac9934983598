/-
Basic vocabulary of the model: byte strings, fixed-size arrays, Go results,
and the helpers of `util/bytehelper/byte.go`, `util/optional/int.go`,
`strconv.Itoa`.
-/
namespace Verif

/-- A Go `[]byte` (contents only).  Where the code distinguishes a nil slice
from an empty one the model uses `Option Bytes`. Used everywhere; e.g. util/bytehelper/byte.go. -/
abbrev Bytes := List UInt8

/-- A Go `[n]byte`. E.g. ecc/djb_ec_public.go:13 `publicKey [32]byte`. -/
structure Arr (n : Nat) where
  bytes : Bytes
  len : bytes.length = n
deriving DecidableEq

theorem Arr.ext {n : Nat} {a b : Arr n} (h : a.bytes = b.bytes) : a = b := by
  cases a; cases b; cases h; rfl

/-- Errors the library returns (`errors.New(...)`), one constructor per message.
E.g. session/cipher.go, session/session.go, protocol/signal_message.go. -/
inductive Err where
  | inputTooSmall        -- util/bytehelper/byte.go:54
  | badKeyType           -- ecc/curve.go:29
  | kdfTooLong           -- golang.org/x/crypto/hkdf: "entropy limit reached"
  | randFailure          -- crypto/rand read error
  | badAesKey            -- crypto/aes KeySizeError
  | shortCiphertext      -- cipher/cbc.go:37, cipher/cipher.go:19
  | badPadding           -- cipher/cbc.go:97, cipher/cipher.go:58-61
  | legacyVersion        -- protocol/signal_message.go:42
  | unknownVersion       -- protocol/signal_message.go:48
  | incomplete           -- protocol/signal_message.go:54
  | badMac               -- protocol/signal_message.go:188
  | protoEOF             -- github.com/golang/protobuf: malformed wire data
  | noSession            -- session/cipher.go:142
  | noValidSessions      -- session/cipher.go:226
  | uninitialized        -- session/cipher.go:239
  | wrongVersion         -- session/cipher.go:245
  | oldCounter           -- session/cipher.go:290, groups/cipher.go:125
  | tooFarFuture         -- session/cipher.go:296, groups/cipher.go:129
  | untrustedIdentity    -- session/session.go:88
  | noSignedPreKey       -- session/session.go:185
  | invalidSignature     -- session/session.go:193
  | nilOneTimePreKey     -- session/session.go:139
  | noSenderKeys         -- groups/state/record/sender_key.go:85
  | noSenderKeyForId     -- groups/state/record/sender_key.go:97
  | noSenderKeyRecord    -- groups/cipher.go:77
  | badJson              -- serialize/json.go: error of encoding/json Unmarshal
  | badBase64            -- provision/cipher.go:39-46: error of base64 decoding
  | signatureFailed      -- groups/cipher.go:89
deriving DecidableEq, Repr

/-- Outcome of a Go call: a value, a returned error, or a run-time panic
(nil dereference, slice bounds, explicit `panic`). Every function of /repo returning `error`, e.g. session/cipher.go:65 `Encrypt`. -/
inductive Res (α : Type) where
  | ok (a : α)
  | err (e : Err)
  | panic
deriving DecidableEq, Repr

namespace Res
/-- Sequencing: `err` and `panic` abort (the `if err != nil { return err }` idiom). E.g. session/cipher.go:66-70. -/
def bind {α β : Type} (x : Res α) (f : α → Res β) : Res β :=
  match x with
  | ok a => f a
  | err e => err e
  | panic => panic

/-- A result put to use when there is no error (e.g. session/cipher.go:139-142). -/
def map {α β : Type} (f : α → β) (x : Res α) : Res β :=
  match x with
  | ok a => ok (f a)
  | err e => err e
  | panic => panic

/-- Whether a call such as session/cipher.go:65 `Encrypt` succeeded; used in statements only. -/
def isOk {α : Type} : Res α → Bool
  | ok _ => true
  | _ => false

/-- Whether a call panicked; used in statements only (no .go counterpart). -/
def isPanic {α : Type} : Res α → Bool
  | panic => true
  | _ => false

/-- Comparison of outcomes, for examples only (no .go counterpart). -/
instance : Monad Res where
  pure := ok
  bind := bind

@[simp] theorem bind_ok {α β : Type} (a : α) (f : α → Res β) : (ok a).bind f = f a := rfl
@[simp] theorem bind_err {α β : Type} (e : Err) (f : α → Res β) : (err e : Res α).bind f = err e := rfl
@[simp] theorem bind_panic {α β : Type} (f : α → Res β) : (panic : Res α).bind f = panic := rfl
@[simp] theorem map_ok {α β : Type} (a : α) (f : α → β) : (ok a).map f = ok (f a) := rfl
@[simp] theorem map_err {α β : Type} (e : Err) (f : α → β) : (err e : Res α).map f = err e := rfl
@[simp] theorem map_panic {α β : Type} (f : α → β) : (panic : Res α).map f = panic := rfl
end Res

/-- `copy(dst[:], b)` into a zeroed array of `n` bytes: truncates or zero-pads.
Models the pattern used by util/bytehelper/byte.go:8-19 and ecc/curve.go:25-26. -/
def copyInto (n : Nat) (b : Bytes) : Bytes :=
  b.take n ++ List.replicate (n - b.length) 0

theorem copyInto_length (n : Nat) (b : Bytes) : (copyInto n b).length = n := by
  simp [copyInto]; omega

/-- util/bytehelper/byte.go:8-12 `SliceToArray` (n = 32) and 15-19
`SliceToArray64` (n = 64). -/
def sliceToArray (n : Nat) (b : Bytes) : Arr n := ⟨copyInto n b, copyInto_length n b⟩

/-- util/bytehelper/byte.go:34-44 `Split`.  `input[:firstLength]` panics when the
input is shorter; the second part is zero-filled if the rest is shorter than
`secondLength` and truncated if longer.  Lengths are natural numbers (callers
pass constants). -/
def split (input : Bytes) (first second : Nat) : Res (Bytes × Bytes) :=
  if input.length < first then .panic
  else .ok (input.take first, copyInto second (input.drop first))

/-- util/bytehelper/byte.go:50-69 `SplitThree`; `none` is the nil slice. Lengths are
Go `int`s and may be negative (serialize/proto.go:74). -/
def splitThree (input : Option Bytes) (first second third : Int) : Res (Bytes × Bytes × Bytes) :=
  match input with
  | none => .err .inputTooSmall
  | some b =>
    if first < 0 ∨ second < 0 ∨ third < 0 ∨ (b.length : Int) < first + second + third then
      .err .inputTooSmall
    else
      .ok (b.take first.toNat,
           (b.drop first.toNat).take second.toNat,
           copyInto third.toNat (b.drop (first + second).toNat))

/-- util/bytehelper/byte.go:72-77 `Trim`. -/
def trim (input : Bytes) (length : Nat) : Res Bytes :=
  if input.length < length then .panic else .ok (input.take length)

/-- util/bytehelper/byte.go:80-89 `Bytes5ToInt64`; a value below 2^40, so the
int64 shifts and ors do not overflow and the ors act as sums. Panics out of range. -/
def bytes5ToInt64 (b : Bytes) (offset : Nat) : Res Nat :=
  match b[offset]?, b[offset+1]?, b[offset+2]?, b[offset+3]?, b[offset+4]? with
  | some b0, some b1, some b2, some b3, some b4 =>
    .ok ((b0.toNat <<< 32) ||| (b1.toNat <<< 24) ||| (b2.toNat <<< 16) ||| (b3.toNat <<< 8) ||| b4.toNat)
  | _, _, _, _, _ => .panic

/-- util/optional/int.go:14-17 `optional.Uint32` (the pointer's nil-ness is an
outer `Option`). -/
structure OptU32 where
  value : UInt32
  isEmpty : Bool
deriving DecidableEq, Repr

/-- util/optional/int.go:4-6. -/
def OptU32.new (v : UInt32) : OptU32 := ⟨v, false⟩
/-- util/optional/int.go:8-10. -/
def OptU32.empty : OptU32 := ⟨0, true⟩

/-- ASCII code of a decimal digit. Part of `strconv.Itoa` as used by serialize/proto.go. -/
def digitChar (d : Nat) : UInt8 := UInt8.ofNat (48 + d % 10)

/-- Decimal digits of `n`, most significant first, prepended to `acc`.
`fuel` bounds the number of digits; see `natDec`. Part of `strconv.Itoa` as used by serialize/proto.go. -/
def natDecAux : Nat → Nat → Bytes → Bytes
  | 0, _, acc => acc
  | fuel + 1, n, acc =>
    if n < 10 then digitChar n :: acc
    else natDecAux fuel (n / 10) (digitChar n :: acc)

/-- `strconv.Itoa` / `fmt.Sprint` on a non-negative integer, as ASCII bytes
(`n + 1` steps always suffice: theorem `natDec_eq` in Proofs/Basic). Used by serialize/proto.go and protocol/signal_protocol_address.go:36-38. -/
def natDec (n : Nat) : Bytes := natDecAux (n + 1) n []

/-- `strconv.Itoa` (Go standard library) as ASCII bytes. Used by serialize/proto.go. -/
def itoa (v : Int) : Bytes :=
  match v with
  | .ofNat n => natDec n
  | .negSucc n => 45 :: natDec (n + 1)

/-- ASCII bytes of a string constant (Go `[]byte("...")`); the constants in the
library are ASCII. E.g. keys/root/key.go, session/session.go. -/
def ascii (s : String) : Bytes := s.toList.map fun c => UInt8.ofNat c.toNat

end Verif
