import Verif.Model.Session
import Verif.Model.Proto
import Verif.Proofs.Basic
/-
A concrete computable instance of the primitives satisfying all the laws at once.  It is used
only in non-vacuity examples and in witnesses of negative results; it is of course not secure.
-/
namespace Verif.Toy

/-- Bytewise map on arrays. -/
def amap {n : Nat} (f : UInt8 → UInt8) (a : Arr n) : Arr n := ⟨a.bytes.map f, by simp [a.len]⟩
def azip {n : Nat} (f : UInt8 → UInt8 → UInt8) (a b : Arr n) : Arr n :=
  ⟨List.zipWith f a.bytes b.bytes, by simp [a.len, b.len]⟩

def hash (b : Bytes) : Nat := b.foldl (fun acc x => (acc * 1099511628211 + x.toNat + 7) % 2 ^ 61) 5381

def toyHmac (k m : Bytes) : Key32 :=
  let h := hash (UInt8.ofNat k.length :: k ++ m) * 11400714819323198485 % 2 ^ 61
  ⟨(List.range 32).map (fun i => UInt8.ofNat (h * (2 * i + 3) / 2 ^ (i + 8))), by simp⟩

def toyAes (k : Bytes) (b : Block) : Block := azip (· ^^^ ·) b (sliceToArray 16 k)

/-- The toy primitives. -/
def C : Crypto where
  dh := azip (· + ·)
  basePub := amap (· + 1)
  hmac := toyHmac
  aesEnc := toyAes
  aesDec := toyAes
  sign a m r := sliceToArray 64 ((toyHmac (amap (· + 1) a).bytes m).bytes ++ r.bytes)
  verify p m s := s.bytes.take 32 == (toyHmac p.bytes m).bytes

theorem zip_zip_self (a b : List UInt8) (h : a.length = b.length) :
    List.zipWith (· ^^^ ·) (List.zipWith (· ^^^ ·) a b) b = a := by
  induction a generalizing b with
  | nil => simp
  | cons x a ih =>
    cases b with
    | nil => simp at h
    | cons y b =>
      simp only [List.length_cons, Nat.add_right_cancel_iff] at h
      simp [List.zipWith_cons_cons, ih b h, UInt8.xor_assoc]

theorem aesLaw : C.AesLaw := by
  intro k b _
  apply Arr.ext
  exact zip_zip_self _ _ (by rw [b.len, (sliceToArray 16 k).len])

theorem zip_dh (a b : List UInt8) :
    List.zipWith (· + ·) (a.map (· + 1)) b = List.zipWith (· + ·) (b.map (· + 1)) a := by
  induction a generalizing b with
  | nil => simp
  | cons x a ih =>
    cases b with
    | nil => simp
    | cons y b =>
      simp only [List.map_cons, List.zipWith_cons_cons, ih b]
      congr 1
      rw [UInt8.add_assoc, UInt8.add_comm 1 y, UInt8.add_comm]

theorem dhLaw : C.DhLaw := fun a b => Arr.ext (zip_dh a.bytes b.bytes)

theorem sigLaw : C.SigLaw := by
  intro a m r _
  simp only [C, sliceToArray]
  rw [copyInto_take _ _ (by simp [Arr.len])]
  simp [Arr.len, List.take_append]
  exact List.take_of_length_le (by simp [Arr.len])

/-- A key filled with one byte. -/
def key (b : UInt8) : Key32 := ⟨List.replicate 32 b, by simp⟩
def sig0 : Sig64 := ⟨List.replicate 64 0, by simp⟩
def idPair (b : UInt8) : IdKeyPair := ⟨C.basePub (key b), key b⟩

/-- A user's environment with the protobuf serializers, a working random source giving
different keys for each read, and trust on first use. -/
def env (id : UInt8) (seed : Nat) : Env where
  C := C
  S := protoSM
  P := protoPK
  rng n := some ⟨(List.range 32).map (fun i => UInt8.ofNat (seed * 64 + n * 7 + i)), by simp⟩
  identity := idPair id
  registrationId := 100
  trusted ids a k := match ids a with
    | none => true
    | some k' => k' == k

end Verif.Toy
