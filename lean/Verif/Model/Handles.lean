import Verif.Model.Store
import Verif.Model.Groups
/-
The objects through which the library is used: `session.Builder`, `session.Cipher` and `groups.GroupCipher`, with the addresses they were constructed with.  The other models take one
address per call; here the address of a cipher and the address of its builder are separate, as they are in the code.
-/
namespace Verif

/-- session/session.go:72-80 `Builder`: its address.  (Its stores and serializers are the user's, `Store` and `Env`.) -/
structure Builder where
  addr : Addr

/-- session/session.go:26-40 `NewBuilder`, session/session.go:42-57 `NewBuilderFromSignal`. -/
def newBuilder (a : Addr) : Builder := ⟨a⟩

/-- session/cipher.go:50-62 `Cipher`: its address, and the builder it holds (a pointer, possibly nil). -/
structure Cipher where
  addr : Addr
  builder : Option Builder

/-- session/cipher.go:23-33 `NewCipher`: the address is a separate argument; it is not compared with the builder's. -/
def newCipher (b : Builder) (a : Addr) : Cipher := ⟨a, some b⟩

/-- session/cipher.go:35-48 `NewCipherFromSession`: the field `builder` is not set. -/
def newCipherFromSession (a : Addr) : Cipher := ⟨a, none⟩

/-- session/cipher.go:64-129 `Encrypt`: only the cipher's address is used. -/
def Cipher.encrypt (c : Cipher) (E : Env) (st : Store) (plaintext : Bytes) : Res CipherMsg × Store := st.encrypt E c.addr plaintext

/-- session/cipher.go:132-160 `Decrypt`, `DecryptAndGetKey`: only the cipher's address is used. -/
def Cipher.decrypt (c : Cipher) (E : Env) (st : Store) (pos : Nat) (m : SignalMsg) : Res (Bytes × MsgKeys) × Store × Nat := st.decrypt E pos c.addr m

/-- session/session.go:177-275 `ProcessBundle`: the builder's address is used. -/
def Builder.processBundle (b : Builder) (E : Env) (st : Store) (pos : Nat) (bundle : Bundle) : Res Unit × Store × Nat := st.processBundle E pos b.addr bundle

/-- session/cipher.go:167-184 `DecryptMessageReturnKey` on a loaded record: the session is the one of the cipher's address `a`; `Process` (session/session.go:83-102), a method of the builder,
asks for trust in and saves the identity of the builder's address `b`. -/
def decryptMessageRec (E : Env) (ids : Addr → Option Key32) (preKeys signedPreKeys : UInt32 → Option IdKeyPair) (pos : Nat) (b a : Addr) (r : Rec) (m : PreKeyMsg) :
    Res (Bytes × MsgKeys) × Nat × List Effect :=
  match process E ids preKeys signedPreKeys b r m with
  | (.err e, _, eff) => (.err e, pos, eff)
  | (.panic, _, eff) => (.panic, pos, eff)
  | (.ok id, r1, eff) =>
    match decryptWithRecord E pos r1 m.message with
    | (.err e, _, pos') => (.err e, pos', eff)
    | (.panic, _, pos') => (.panic, pos', eff)
    | (.ok x, r2, pos') =>
      let eff := eff ++ [.storeSession a r2]
      match id with
      | none => (.panic, pos', eff)
      | some o =>
        if o.isEmpty then (.ok x, pos', eff)
        else (.ok x, pos', eff ++ [.removePreKey o.value])

/-- session/cipher.go:167-184: the store operations of `DecryptMessageReturnKey`, with its result.  `d.builder.Process` with a nil builder dereferences it (session/session.go:87). -/
def Cipher.decryptMessageTrace (c : Cipher) (E : Env) (st : Store) (pos : Nat) (m : PreKeyMsg) : Res (Bytes × MsgKeys) × Nat × List Effect :=
  match st.load c.addr with
  | .ok r =>
    match c.builder with
    | none => (.panic, pos, [])
    | some b => decryptMessageRec E st.identities st.preKeys st.signedPreKeys pos b.addr c.addr r m
  | .err e => (.err e, pos, [])
  | .panic => (.panic, pos, [])

/-- session/cipher.go:162-184 `DecryptMessage`. -/
def Cipher.decryptMessage (c : Cipher) (E : Env) (st : Store) (pos : Nat) (m : PreKeyMsg) : Res (Bytes × MsgKeys) × Store × Nat :=
  let (res, pos', effs) := c.decryptMessageTrace E st pos m
  let (res', st') := finish st res effs
  (res', st', pos')

/-- groups/cipher.go:30-34 `GroupCipher`: the name it is for, and its builder (a pointer, possibly nil, of which only the message serializer is used). -/
structure GroupCipher where
  name : SenderKeyName
  builder : Option (Ser SKStruct)

/-- groups/cipher.go:17-25 `NewGroupCipher`. -/
def newGroupCipher (builder : Option (Ser SKStruct)) (n : SenderKeyName) : GroupCipher := ⟨n, builder⟩

/-- groups/cipher.go:37-69 `Encrypt`: with a nil builder the argument `c.sessionBuilder.serializer.SenderKeyMessage` (line 62) dereferences it, before the record is stored. -/
def GroupCipher.encrypt (c : GroupCipher) (C : Crypto) (rand : Arr 64) (st : GStore) (pt : Bytes) : Res SenderKeyMsg × GStore :=
  match c.builder with
  | some S => st.encrypt C S rand c.name pt
  | none =>
    match st.load c.name with
    | .err e => (.err e, st)
    | .panic => (.panic, st)
    | .ok none => (.panic, st)
    | .ok (some []) => (.err .noSenderKeys, st)
    | .ok (some (s :: _)) =>
      match (s.chain.msgKey C).bind fun mk => encryptCbc C none (some mk.iv) mk.cipherKey pt with
      | .err e => (.err e, st)
      | _ => (.panic, st)

/-- groups/cipher.go:73-106 `Decrypt`: the builder is not used (`S` is the serializer carried by the message). -/
def GroupCipher.decrypt (c : GroupCipher) (C : Crypto) (S : Ser SKStruct) (st : GStore) (m : SenderKeyMsg) : Res Bytes × GStore :=
  st.decrypt C S c.name m

end Verif
