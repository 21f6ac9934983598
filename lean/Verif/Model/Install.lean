import Verif.Model.PreKeys
import Verif.Model.Store
/-
Installing the library on a device and publishing a bundle: the calls an application makes at install time, as documented in README.md and as made by tests/user.go.
-/
namespace Verif

/-- What installing leaves behind: the user's configuration (with the generated identity), the generated records (kept to be published), the stores, and the position in
the random source.  tests/user.go:13-34 `user`. -/
structure Installation where
  env : Env
  preKeys : List PreKey
  signedPreKey : SignedPreKey
  store : Store
  pos : Nat

/-- Storing the generated prekeys one after the other: README.md:80-86, tests/user.go:74-79. -/
def storePreKeys (f : UInt32 → Option IdKeyPair) : List PreKey → UInt32 → Option IdKeyPair
  | [] => f
  | p :: ps => storePreKeys (upd f p.id.value (some (newPreKey p.id.value p.pair).pair)) ps

/-- README.md:47-99 and tests/user.go:52-92 `newUser`: generate an identity key pair, the prekeys `start` to `count` and a signed prekey, and put them into empty stores.
`E` holds what is not generated here (its identity is replaced); the registration number is the one of `E` (Model/Random models its generation).  An application that cannot
generate its keys panics (README.md:55-57). `rand`: the bytes the signature draws; `now`: the clock. -/
def install (E : Env) (start count : Int) (spkId : UInt32) (rand : Arr 64) (now : Int64) (pos : Nat) : Res Installation :=
  match generateIdentityKeyPair E.C (E.rng pos) with
  | .ok ident =>
    match generatePreKeys E.C E.rng start count (pos + 1) with
    | .ok pks =>
      match generateSignedPreKey E.C (E.rng (pos + 1 + pks.length)) rand now ident.priv spkId with
      | .ok spk =>
        .ok { env := { E with identity := ident }, preKeys := pks, signedPreKey := spk,
              store := { sessions := fun _ => none, identities := fun _ => none, preKeys := storePreKeys (fun _ => none) pks,
                         signedPreKeys := upd (fun _ => none) spk.struct.id (some (newSignedPreKey spk.struct.id spk.struct.timestamp spk.pair spk.signature).pair) },
              pos := pos + 1 + pks.length + 1 }
      | _ => .panic
    | _ => .panic
  | _ => .panic

/-- The bundle with prekey record `pk` and signed prekey record `spk` of the user with configuration `E` on device `device`: keys/prekey/bundle.go:14-31 `NewBundle`, called as
in tests/session_test.go:30-39. -/
def publish (E : Env) (device : UInt32) (pk : PreKey) (spk : SignedPreKey) : Bundle :=
  { registrationId := E.registrationId, deviceId := device, preKeyId := some pk.id, preKeyPublic := some pk.pair.pub,
    signedPreKeyId := spk.struct.id, signedPreKeyPublic := some spk.pair.pub, signature := spk.signature, identityKey := E.identity.pub }

end Verif
