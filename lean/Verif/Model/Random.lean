import Verif.Model.Groups
import Verif.Model.PreKeys
/-
Reads of the operating system's random source (crypto/rand) by util/keyhelper/key.go and ecc/curve.go, with their failures.  A read of `n` bytes is described by the bytes
`got` the source delivers before it ends: it succeeds when there are at least `n`.
-/
namespace Verif

/-- io.ReadFull / rand.Read into a zeroed buffer of `n` bytes: the buffer afterwards and whether an error was returned. ecc/curve.go:63, 112, util/keyhelper/key.go:88, 101. -/
def readRandom (n : Nat) (got : Bytes) : Bytes × Bool := (copyInto n got, decide (got.length < n))

/-- What `GenerateKeyPair` makes of its read: an error is returned to the caller. ecc/curve.go:62-66. -/
def drawOf (got : Bytes) : Option Key32 :=
  match readRandom 32 got with
  | (_, true) => none
  | (_, false) => some (sliceToArray 32 got)

/-- util/keyhelper/key.go:86-91 `GenerateRegistrationID`: binary.Read leaves the number 0 when it fails, and its error is ignored. -/
def generateRegistrationID (got : Bytes) : UInt32 :=
  match readRandom 4 got with
  | (_, true) => 0
  | (b, false) => UInt32.ofNat (b.foldr (fun x acc => x.toNat + 256 * acc) 0)

/-- util/keyhelper/key.go:105-107 `GenerateSenderKeyID`. -/
def generateSenderKeyID (got : Bytes) : UInt32 := generateRegistrationID got

/-- util/keyhelper/key.go:99-103 `GenerateSenderKey`: the buffer is returned whether or not the read failed. -/
def generateSenderKey (got : Bytes) : Key32 := ⟨(readRandom 32 got).1, copyInto_length 32 got⟩

/-- util/keyhelper/key.go:95-97 `GenerateSenderSigningKey`. -/
def generateSenderSigningKey (C : Crypto) (got : Bytes) : Res KeyPair := generateKeyPair C (drawOf got)

/-- ecc/curve.go:107-120 `CalculateSignature`: the error of the read is ignored. -/
def calculateSignatureFrom (C : Crypto) (priv : Key32) (message got : Bytes) : Sig64 :=
  C.sign priv message ⟨(readRandom 64 got).1, copyInto_length 64 got⟩

/-- groups/session_builder.go:49-84 `Create`, with its three reads in order: signing key, key id, chain key. -/
def GStore.createFrom (C : Crypto) (got1 got2 got3 : Bytes) (st : GStore) (n : SenderKeyName) : Res SKDMsg × GStore :=
  st.create C ⟨drawOf got1, generateSenderKeyID got2, generateSenderKey got3⟩ n

end Verif
