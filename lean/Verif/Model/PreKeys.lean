import Verif.Model.Crypto
/-
state/record/prekey.go, signed_prekey.go and util/keyhelper/key.go.
-/
namespace Verif

/-- state/record/prekey.go:60-64 `PreKeyStructure`. -/
structure PreKeyStruct where
  id : UInt32
  pub : Bytes
  priv : Bytes
deriving DecidableEq

/-- state/record/prekey.go:68-72 `PreKey` (serializer omitted).  Both halves of the pair are
present: `NewPreKey` dereferences the private key. -/
structure PreKey where
  struct : PreKeyStruct
  pair : IdKeyPair
deriving DecidableEq

/-- state/record/prekey.go:47-57 `NewPreKey`. -/
def newPreKey (id : UInt32) (kp : IdKeyPair) : PreKey := ⟨⟨id, serPub kp.pub, kp.priv.bytes⟩, kp⟩

/-- state/record/prekey.go:29-43 `NewPreKeyFromStruct`: the stored public key is the 33-byte
serialised form, but its first 32 bytes are taken as the key. -/
def PreKey.ofStruct (st : PreKeyStruct) : PreKey :=
  ⟨st, ⟨sliceToArray 32 st.pub, sliceToArray 32 st.priv⟩⟩

/-- state/record/prekey.go:75-78 `ID`. -/
def PreKey.id (p : PreKey) : OptU32 := OptU32.new p.struct.id

/-- state/record/signed_prekey.go:70-76 `SignedPreKeyStructure` (timestamp: an int64). -/
structure SignedPreKeyStruct where
  id : UInt32
  pub : Bytes
  priv : Bytes
  signature : Bytes
  timestamp : Int64
deriving DecidableEq

/-- state/record/signed_prekey.go:80-85 `SignedPreKey`. -/
structure SignedPreKey where
  struct : SignedPreKeyStruct
  pair : IdKeyPair
  signature : Sig64
deriving DecidableEq

/-- state/record/signed_prekey.go:51-66 `NewSignedPreKey`. -/
def newSignedPreKey (id : UInt32) (timestamp : Int64) (kp : IdKeyPair) (sig : Sig64) : SignedPreKey :=
  ⟨⟨id, serPub kp.pub, kp.priv.bytes, sig.bytes, timestamp⟩, kp, sig⟩

/-- state/record/signed_prekey.go:30-47 `NewSignedPreKeyFromStruct`. -/
def SignedPreKey.ofStruct (st : SignedPreKeyStruct) : SignedPreKey :=
  ⟨st, ⟨sliceToArray 32 st.pub, sliceToArray 32 st.priv⟩, sliceToArray 64 st.signature⟩

/-- The pair `GenerateKeyPair` returns, with its private half present (ecc/curve.go:53-82). -/
def generateIdPair (C : Crypto) (draw : Option Key32) : Res IdKeyPair :=
  match draw with
  | none => .err .randFailure
  | some r => let p := clamp r; .ok ⟨C.basePub p, p⟩

/-- util/keyhelper/key.go:47-59 `GeneratePreKeys`: the loop `for i := start; i <= count; i++`
with `fuel` = number of iterations left.  `pos` is the position in the random source;
`uint32(i)` truncates.  Overflow of `i++` past the maximal int (start or count = MaxInt64) is
not modelled. -/
def generatePreKeysLoop (C : Crypto) (rng : Nat → Option Key32) : Nat → Int → Nat → List PreKey → Res (List PreKey)
  | 0, _, _, acc => .ok acc
  | fuel + 1, i, pos, acc =>
    match generateIdPair C (rng pos) with
    | .err e => .err e
    | .panic => .panic
    | .ok kp => generatePreKeysLoop C rng fuel (i + 1) (pos + 1) (acc ++ [newPreKey (UInt32.ofInt i) kp])

/-- util/keyhelper/key.go:47-59 `GeneratePreKeys`. -/
def generatePreKeys (C : Crypto) (rng : Nat → Option Key32) (start count : Int) (pos : Nat) : Res (List PreKey) :=
  generatePreKeysLoop C rng (count + 1 - start).toNat start pos []

/-- util/keyhelper/key.go:64-70 `GenerateLastResortKey`. -/
def generateLastResortKey (C : Crypto) (draw : Option Key32) : Res PreKey :=
  (generateIdPair C draw).map fun kp => newPreKey 0 kp

/-- util/keyhelper/key.go:17-25 `GenerateIdentityKeyPair`. -/
def generateIdentityKeyPair (C : Crypto) (draw : Option Key32) : Res IdKeyPair := generateIdPair C draw

/-- util/keyhelper/key.go:73-82 `GenerateSignedPreKey`; `rand` is the 64 bytes the signature
reads, `now` the clock. -/
def generateSignedPreKey (C : Crypto) (draw : Option Key32) (rand : Arr 64) (now : Int64) (idPriv : Key32) (id : UInt32) :
    Res SignedPreKey :=
  (generateIdPair C draw).map fun kp => newSignedPreKey id now kp (C.sign idPriv (serPub kp.pub) rand)

end Verif
