import Verif.Model.Protocol
/-
serialize/proto.go on top of the wire behaviour of github.com/golang/protobuf 1.3
(`proto.Marshal` / `proto.Unmarshal` for the four message types of
serialize/protocol_whisper_text.pb.go).
-/
namespace Verif

/-- Protobuf varint of a 64-bit value (golang/protobuf `EncodeVarint`). `fuel` bounds the
number of groups; `encVarint` supplies ten, enough for 64 bits. Called by serialize/proto.go. -/
def encVarintAux : Nat → Nat → Bytes
  | 0, _ => []
  | fuel + 1, n =>
    if n < 128 then [UInt8.ofNat n]
    else UInt8.ofNat (n % 128 + 128) :: encVarintAux fuel (n / 128)

/-- A varint (golang/protobuf, called by serialize/proto.go). -/
def encVarint (n : Nat) : Bytes := encVarintAux 10 n

/-- golang/protobuf table_unmarshal.go `decodeVarint`: value and rest, `none` when the
input ends inside the varint or the tenth byte is not 0 or 1.  `k` is the byte position. -/
def decVarintAux : Nat → Nat → Bytes → Option (Nat × Bytes)
  | 0, _, _ => none
  | _ + 1, _, [] => none
  | fuel + 1, k, b :: rest =>
    if k = 9 then
      if b.toNat < 2 then some (b.toNat * 2 ^ (7 * k), rest) else none
    else if b.toNat < 128 then some (b.toNat * 2 ^ (7 * k), rest)
    else
      match decVarintAux fuel (k + 1) rest with
      | none => none
      | some (v, r) => some ((b.toNat - 128) * 2 ^ (7 * k) + v, r)

/-- A varint read from the input (golang/protobuf, called by serialize/proto.go). -/
def decVarint (b : Bytes) : Option (Nat × Bytes) := decVarintAux 10 0 b

/-- Wire values of the two field kinds used by the messages. serialize/protocol_whisper_text.pb.go. -/
inductive FieldVal where
  | varint (n : Nat)
  | bytes (b : Bytes)
deriving DecidableEq

/-- golang/protobuf table_unmarshal.go `findEndGroup`: position after the matching
end-group tag, as the remaining input. `depth` starts at 1. -/
def skipGroup : Nat → Nat → Bytes → Option Bytes
  | 0, _, _ => none
  | fuel + 1, depth, b =>
    match decVarint b with
    | none => none
    | some (x, r) =>
      match x % 8 with
      | 0 => match decVarint r with
        | none => none
        | some (_, r') => skipGroup fuel depth r'
      | 1 => if r.length < 8 then none else skipGroup fuel depth (r.drop 8)
      | 2 => match decVarint r with
        | none => none
        | some (n, r') => if r'.length < n then none else skipGroup fuel depth (r'.drop n)
      | 3 => skipGroup fuel (depth + 1) r
      | 4 => if depth ≤ 1 then some r else skipGroup fuel (depth - 1) r
      | 5 => if r.length < 4 then none else skipGroup fuel depth (r.drop 4)
      | _ => none

/-- golang/protobuf table_unmarshal.go `skipField`. -/
def skipField (wire : Nat) (b : Bytes) : Option Bytes :=
  match wire with
  | 0 => (decVarint b).map (·.2)
  | 1 => if b.length < 8 then none else some (b.drop 8)
  | 2 => match decVarint b with
    | none => none
    | some (n, r) => if r.length < n then none else some (r.drop n)
  | 3 => skipGroup (b.length + 1) 1 b
  | 5 => if b.length < 4 then none else some (b.drop 4)
  | _ => none

/-- The kind a message declares for a field number (from the `protobuf:"…"` tags in
serialize/protocol_whisper_text.pb.go). -/
inductive Kind where
  | u32
  | bytes
deriving DecidableEq

/-- One field of the input: `some (tag, value)` for a declared field with the declared wire
type, `none` for a skipped (unknown, or wrong wire type) field; plus the rest.
golang/protobuf table_unmarshal.go `unmarshal` loop body, `unmarshalUint32Ptr`,
`unmarshalBytesValue`. -/
def readField (schema : Nat → Option Kind) (b : Bytes) : Option (Option (Nat × FieldVal) × Bytes) :=
  match decVarint b with
  | none => none
  | some (x, r) =>
    let tag := x / 8
    let wire := x % 8
    match schema tag, wire with
    | some .u32, 0 =>
      match decVarint r with
      | none => none
      | some (v, r') => some (some (tag, .varint (v % 2 ^ 32)), r')
    | some .bytes, 2 =>
      match decVarint r with
      | none => none
      | some (n, r') => if r'.length < n then none else some (some (tag, .bytes (r'.take n)), r'.drop n)
    | _, _ =>
      match skipField wire r with
      | none => none
      | some r' => some (none, r')

/-- The unmarshal loop: all declared fields in input order.  Each iteration consumes at
least one byte, so `fuel = length` suffices. Called by serialize/proto.go. -/
def readFields (schema : Nat → Option Kind) : Nat → Bytes → Option (List (Nat × FieldVal))
  | _, [] => some []
  | 0, _ :: _ => none
  | fuel + 1, b :: bs =>
    match readField schema (b :: bs) with
    | none => none
    | some (f, rest) =>
      match readFields schema fuel rest with
      | none => none
      | some fs => some (match f with | some p => p :: fs | none => fs)

/-- `proto.Unmarshal` of the declared fields (called by serialize/proto.go). -/
def unmarshal (schema : Nat → Option Kind) (b : Bytes) : Res (List (Nat × FieldVal)) :=
  match readFields schema b.length b with
  | none => .err .protoEOF
  | some fs => .ok fs

/-- Last occurrence wins (golang/protobuf overwrites the struct field). Called by serialize/proto.go. -/
def lastField (tag : Nat) (fs : List (Nat × FieldVal)) : Option FieldVal :=
  (fs.reverse.find? (fun p => p.1 == tag)).map (·.2)

/-- Generated getter of an optional uint32 field: zero when absent. serialize/*.pb.go. -/
def getU32 (tag : Nat) (fs : List (Nat × FieldVal)) : UInt32 :=
  match lastField tag fs with
  | some (.varint n) => UInt32.ofNat n
  | _ => 0

/-- Generated getter of a bytes field: nil when absent. serialize/*.pb.go. -/
def getBytes (tag : Nat) (fs : List (Nat × FieldVal)) : Option Bytes :=
  match lastField tag fs with
  | some (.bytes b) => some b
  | _ => none

/-- Marshal one `optional uint32` field (pointer non-nil). Called by serialize/proto.go. -/
def putU32 (tag : Nat) (v : UInt32) : Bytes := encVarint (tag * 8) ++ encVarint v.toNat
/-- Marshal one `optional bytes` field; nil is omitted. Called by serialize/proto.go. -/
def putBytes (tag : Nat) (v : Option Bytes) : Bytes :=
  match v with
  | none => []
  | some b => encVarint (tag * 8 + 2) ++ encVarint b.length ++ b

/-- serialize/proto.go:34-36 `highBitsToInt`. -/
def highBits (b : UInt8) : Nat := b.toNat / 16

/-- protocol_whisper_text.pb.go:24-27 -/
def smSchema : Nat → Option Kind
  | 1 => some .bytes | 2 => some .u32 | 3 => some .u32 | 4 => some .bytes | _ => none
/-- protocol_whisper_text.pb.go:87-92 -/
def pkSchema : Nat → Option Kind
  | 1 => some .u32 | 2 => some .bytes | 3 => some .bytes | 4 => some .bytes
  | 5 => some .u32 | 6 => some .u32 | _ => none
/-- protocol_whisper_text.pb.go:237-239 -/
def skSchema : Nat → Option Kind
  | 1 => some .u32 | 2 => some .u32 | 3 => some .bytes | _ => none
/-- protocol_whisper_text.pb.go:292-295 -/
def skdSchema : Nat → Option Kind
  | 1 => some .u32 | 2 => some .u32 | 3 => some .bytes | 4 => some .bytes | _ => none

/-- serialize/proto.go:47-53 + proto.Marshal (fields in tag order). -/
def smMarshal (st : SMStruct) : Bytes :=
  putBytes 1 st.ratchetKey ++ putU32 2 st.counter ++ putU32 3 st.previousCounter ++ putBytes 4 st.cipherText

/-- serialize/proto.go:47-70. -/
def smSer (st : SMStruct) : Res Bytes :=
  .ok ((if st.version ≠ 0 then itoa st.version else []) ++ smMarshal st ++ st.mac.getD [])

/-- serialize/proto.go:73-100.  The input slice is treated as non-nil: a nil slice gives the
same "input too small" error as an empty one. -/
def smDe (b : Bytes) : Res SMStruct :=
  (splitThree (some b) 1 ((b.length : Int) - 1 - macLength) macLength).bind fun (p0, p1, p2) =>
    match p0 with
    | [] => .panic
    | v :: _ =>
      (unmarshal smSchema p1).map fun fs =>
        { version := highBits v, ratchetKey := getBytes 1 fs, counter := getU32 2 fs,
          previousCounter := getU32 3 fs, cipherText := getBytes 4 fs, mac := some p2 }

/-- serialize/proto.go:44,73: `ProtoBufSignalMessageSerializer`. -/
def protoSM : Ser SMStruct := ⟨smSer, smDe⟩

/-- serialize/proto.go:107-128; a nil PreKeyID is dereferenced (panic). -/
def pkSer (st : PKStruct) : Res Bytes :=
  match st.preKeyId with
  | none => .panic
  | some o =>
    .ok (itoa st.version
      ++ ((if o.isEmpty then [] else putU32 1 o.value) ++ putBytes 2 st.baseKey ++ putBytes 3 st.identityKey
          ++ putBytes 4 st.message ++ putU32 5 st.registrationId ++ putU32 6 st.signedPreKeyId))

/-- serialize/proto.go:131-152; indexing an empty slice panics; the prekey id is always
wrapped as present. -/
def pkDe (b : Bytes) : Res PKStruct :=
  match b with
  | [] => .panic
  | v :: msg =>
    (unmarshal pkSchema msg).map fun fs =>
      { version := highBits v, registrationId := getU32 5 fs, baseKey := getBytes 2 fs,
        identityKey := getBytes 3 fs, signedPreKeyId := getU32 6 fs, message := getBytes 4 fs,
        preKeyId := some (OptU32.new (getU32 1 fs)) }

/-- serialize/proto.go:104-152 `ProtoBufPreKeySignalMessageSerializer`. -/
def protoPK : Ser PKStruct := ⟨pkSer, pkDe⟩

/-- serialize/proto.go:159-176. -/
def skdSer (st : SKDStruct) : Res Bytes :=
  .ok (itoa st.version.toNat
    ++ (putU32 1 st.id ++ putU32 2 st.iteration ++ putBytes 3 st.chainKey ++ putBytes 4 st.signingKey))

/-- serialize/proto.go:180-199. -/
def skdDe (b : Bytes) : Res SKDStruct :=
  match b with
  | [] => .panic
  | v :: msg =>
    (unmarshal skdSchema msg).map fun fs =>
      { id := getU32 1 fs, iteration := getU32 2 fs, chainKey := getBytes 3 fs,
        signingKey := getBytes 4 fs, version := UInt32.ofNat (highBits v) }

/-- serialize/proto.go:156-199 `ProtoBufSenderKeyDistributionMessageSerializer`. -/
def protoSKD : Ser SKDStruct := ⟨skdSer, skdDe⟩

/-- serialize/proto.go:206-228: with version 0 the body is not written. -/
def skSer (st : SKStruct) : Res Bytes :=
  .ok ((if st.version ≠ 0 then
          itoa st.version.toNat ++ (putU32 1 st.id ++ putU32 2 st.iteration ++ putBytes 3 st.cipherText)
        else [])
    ++ st.signature.getD [])

/-- serialize/proto.go:232-258. -/
def skDe (b : Bytes) : Res SKStruct :=
  (splitThree (some b) 1 ((b.length : Int) - 1 - 64) 64).bind fun (p0, p1, p2) =>
    match p0 with
    | [] => .panic
    | v :: _ =>
      (unmarshal skSchema p1).map fun fs =>
        { version := UInt32.ofNat (highBits v), id := getU32 1 fs, iteration := getU32 2 fs,
          cipherText := getBytes 3 fs, signature := some p2 }

/-- serialize/proto.go:203-258 `ProtoBufSenderKeyMessageSerializer`. -/
def protoSK : Ser SKStruct := ⟨skSer, skDe⟩

end Verif
