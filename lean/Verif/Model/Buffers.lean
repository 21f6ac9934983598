import Verif.Model.Session
import Verif.Model.Groups
/-
Go slices: the same operations on memory, to account for aliasing.

Memory is a list of backing arrays; a slice is a window into one of them.  Initialisation vectors and keys are passed
by value here: the callers pass freshly derived ones which nothing else refers to.
-/
namespace Verif

/-- Backing arrays, by address. The Go heap as cipher/cbc.go sees it. -/
structure Mem where
  arrays : List Bytes
deriving DecidableEq

/-- Reading a backing array (cipher/cbc.go). -/
def Mem.get (m : Mem) (i : Nat) : Bytes := (m.arrays[i]?).getD []
/-- Writing a backing array (cipher/cbc.go). -/
def Mem.put (m : Mem) (i : Nat) (b : Bytes) : Mem := ⟨m.arrays.set i b⟩
/-- `make([]byte, n)`, e.g. in util/bytehelper/byte.go. -/
def Mem.alloc (m : Mem) (b : Bytes) : Mem := ⟨m.arrays ++ [b]⟩
/-- The address the next array will get. See util/bytehelper/byte.go `make`. -/
def Mem.fresh (m : Mem) : Nat := m.arrays.length

/-- A Go slice header: backing array, offset, length, capacity (from the offset). E.g. the argument of cipher/cbc.go `EncryptCbc`. -/
structure Slice where
  arr : Nat
  off : Nat
  len : Nat
  cap : Nat
deriving DecidableEq, Repr

/-- The slice lies within its array. Go never makes other slices; invariant of cipher/cbc.go. -/
def Slice.In (s : Slice) (m : Mem) : Prop :=
  s.arr < m.arrays.length ∧ s.len ≤ s.cap ∧ s.off + s.cap ≤ (m.get s.arr).length

/-- The bytes `s[0:len]`. E.g. `plaintext[:]` in cipher/cbc.go. -/
def Mem.read (m : Mem) (s : Slice) : Bytes := ((m.get s.arr).drop s.off).take s.len

/-- `b` with the bytes from `i` on replaced by `x`. The effect of `copy` (cipher/cbc.go). -/
def overwrite (b : Bytes) (i : Nat) (x : Bytes) : Bytes := b.take i ++ x ++ b.drop (i + x.length)

/-- `copy(s, x)` for `x` of at most the slice's length. E.g. in cipher/cbc.go. -/
def Mem.write (m : Mem) (s : Slice) (x : Bytes) : Mem := m.put s.arr (overwrite (m.get s.arr) s.off x)

/-- Go's `append(s, x...)`: in place when the capacity suffices, otherwise into a new array with `slack` spare bytes (the language leaves
that number open). Used in cipher/cbc.go `pad`. -/
def goAppend (slack : Nat) (m : Mem) (s : Slice) (x : Bytes) : Mem × Slice :=
  if s.len + x.length ≤ s.cap then
    (m.put s.arr (overwrite (m.get s.arr) (s.off + s.len) x), { s with len := s.len + x.length })
  else
    (m.alloc (m.read s ++ x ++ List.replicate slack 0),
     ⟨m.fresh, 0, s.len + x.length, s.len + x.length + slack⟩)

/-- cipher/cbc.go:86-90 `pad`. -/
def padM (slack : Nat) (m : Mem) (s : Slice) : Mem × Slice :=
  let padding := 16 - s.len % 16
  goAppend slack m s (List.replicate padding (UInt8.ofNat padding))

/-- cipher/cbc.go:92-101 `unpad`: the result is a prefix of its argument. -/
def unpadM (m : Mem) (s : Slice) : Res Slice :=
  match (m.read s).getLast? with
  | none => .panic
  | some last =>
    if s.len < last.toNat then .err .badPadding
    else .ok { s with len := s.len - last.toNat }

/-- `cbc.CryptBlocks(dst, src)` of the standard library: the checks panic before anything is written. Called in cipher/cbc.go. -/
def cryptBlocksM (f : Block → List Block → List Block) (iv : Bytes) (m : Mem) (dst src : Slice) : Res Unit × Mem :=
  match cbcCrypt f iv (m.read src) with
  | .ok x => (.ok (), m.write dst x)
  | .err e => (.err e, m)
  | .panic => (.panic, m)

/-- cipher/cbc.go:54-84 `EncryptCbc`. -/
def encryptCbcM (C : Crypto) (slack : Nat) (ivDraw : Option Block) (iv : Option Bytes) (key : Bytes) (m : Mem) (pt : Slice) : Res Slice × Mem :=
  let (m1, p) := padM slack m pt
  if p.len % 16 ≠ 0 then (.err .badPadding, m1)
  else if aesKeyOk key = false then (.err .badAesKey, m1)
  else match iv with
    | none =>
      let m2 := m1.alloc (List.replicate (16 + p.len) 0)
      let ct : Slice := ⟨m1.fresh, 0, 16 + p.len, 16 + p.len⟩
      match ivDraw with
      | none => (.err .randFailure, m2)
      | some v =>
        let m3 := m2.write { ct with len := 16 } v.bytes
        match cryptBlocksM (cbcEncBlocks C key) v.bytes m3 ⟨m1.fresh, 16, p.len, p.len⟩ p with
        | (.ok (), m4) => (.ok ct, m4)
        | (.err e, m4) => (.err e, m4)
        | (.panic, m4) => (.panic, m4)
    | some v =>
      let m2 := m1.alloc (List.replicate p.len 0)
      let ct : Slice := ⟨m1.fresh, 0, p.len, p.len⟩
      match cryptBlocksM (cbcEncBlocks C key) v m2 ct p with
      | (.ok (), m3) => (.ok ct, m3)
      | (.err e, m3) => (.err e, m3)
      | (.panic, m3) => (.panic, m3)

/-- cipher/cbc.go:29-49 `DecryptCbc`: decrypts in place; the result is a part of the argument. -/
def decryptCbcM (C : Crypto) (iv : Option Bytes) (key : Bytes) (m : Mem) (ct : Slice) : Res Slice × Mem :=
  if aesKeyOk key = false then (.err .badAesKey, m)
  else if ct.len < 16 then (.err .shortCiphertext, m)
  else
    let (iv', ct') := match iv with
      | none => ((m.read ct).take 16, ({ ct with off := ct.off + 16, len := ct.len - 16, cap := ct.cap - 16 } : Slice))
      | some v => (v, ct)
    match cryptBlocksM (cbcDecBlocks C key) iv' m ct' ct' with
    | (.ok (), m1) => (unpadM m1 ct', m1)
    | (.err e, m1) => (.err e, m1)
    | (.panic, m1) => (.panic, m1)

/-- util/bytehelper/byte.go:92-97 `CopySlice`. -/
def copySliceM (m : Mem) (s : Slice) : Mem × Slice := (m.alloc (m.read s), ⟨m.fresh, 0, s.len, s.len⟩)

/-- session/cipher.go:358-361 `encrypt`: the caller's slice is passed on to EncryptCbc. -/
def encryptBodyM (C : Crypto) (slack : Nat) (k : MsgKeys) (m : Mem) (pt : Slice) : Res Slice × Mem :=
  encryptCbcM C slack none (some k.iv) k.cipherKey m pt

/-- session/cipher.go:351-354 `decrypt`: on a copy. -/
def decryptBodyM (C : Crypto) (k : MsgKeys) (m : Mem) (body : Slice) : Res Slice × Mem :=
  let (m1, c) := copySliceM m body
  decryptCbcM C (some k.iv) k.cipherKey m1 c

/-- A message object whose ciphertext is the slice `body`. See protocol/signal_message.go:108-115. -/
def SignalMsg.at (x : SignalMsg) (m : Mem) (body : Slice) : SignalMsg := { x with struct := { x.struct with cipherText := some (m.read body) } }
/-- A message object whose ciphertext is the slice `body` (protocol/sender_key_message.go:105-112). -/
def SenderKeyMsg.at (x : SenderKeyMsg) (m : Mem) (body : Slice) : SenderKeyMsg := { x with ciphertext := some (m.read body) }

/-- session/cipher.go:236-277 `DecryptWithState` for a message object in memory. -/
def decryptWithStateM (E : Env) (draw : Option Key32) (s : SState) (mem : Mem) (m0 : SignalMsg) (body : Slice) :
    Res (Slice × MsgKeys) × SState × Bool × Mem :=
  let m := m0.at mem body
  match s.senderChain with
  | none => (.err .uninitialized, s, false, mem)
  | some _ =>
    if m.struct.version ≠ s.version then (.err .wrongVersion, s, false, mem)
    else
      match getOrCreateChainKey E.C draw s m.senderRatchetKey with
      | (.err e, s1, d) => (.err e, s1, d, mem)
      | (.panic, s1, d) => (.panic, s1, d, mem)
      | (.ok ck, s1, d) =>
        match getOrCreateMessageKeys E.C s1 m.senderRatchetKey ck m.struct.counter with
        | (.err e, s2) => (.err e, s2, d, mem)
        | (.panic, s2) => (.panic, s2, d, mem)
        | (.ok mk, s2) =>
          match m.verifyMac E.C E.S m.struct.version s2.remoteIdentity s2.localIdentity mk.macKey with
          | .err e => (.err e, s2, d, mem)
          | .panic => (.panic, s2, d, mem)
          | .ok () =>
            match decryptBodyM E.C mk mem body with
            | (.err e, mem') => (.err e, s2, d, mem')
            | (.panic, mem') => (.panic, s2, d, mem')
            | (.ok pt, mem') => (.ok (pt, mk), { s2 with pendingPreKey := none }, d, mem')

/-- groups/cipher.go:37-69 `Encrypt` of a plaintext slice: what happens to memory (`slack` as in `goAppend`). -/
def groupEncryptM (C : Crypto) (S : Ser SKStruct) (slack : Nat) (rand : Arr 64) (r : Option GRec) (mem : Mem) (pt : Slice) :
    Res SenderKeyMsg × Option GRec × Bool × Mem :=
  match r with
  | none => (.panic, none, false, mem)
  | some [] => (.err .noSenderKeys, r, false, mem)
  | some (s :: rest) =>
    match s.chain.msgKey C with
    | .err e => (.err e, r, false, mem)
    | .panic => (.panic, r, false, mem)
    | .ok mk =>
      match encryptCbcM C slack none (some mk.iv) mk.cipherKey mem pt with
      | (.err e, mem') => (.err e, r, false, mem')
      | (.panic, mem') => (.panic, r, false, mem')
      | (.ok ct, mem') =>
        match newSenderKeyMessage C S s.keyId mk.iteration (mem'.read ct) s.signing.priv rand with
        | .err e => (.err e, r, false, mem')
        | .panic => (.panic, r, false, mem')
        | .ok m => (.ok m, some ({ s with chain := s.chain.next C } :: rest), true, mem')

/-- groups/cipher.go:73-107 `Decrypt` for a message object in memory. -/
def groupDecryptM (C : Crypto) (S : Ser SKStruct) (r : Option GRec) (mem : Mem) (m0 : SenderKeyMsg) (body : Slice) :
    Res Slice × Option GRec × Bool × Mem :=
  let m := m0.at mem body
  match r with
  | none => (.panic, none, false, mem)
  | some [] => (.err .noSenderKeyRecord, r, false, mem)
  | some (s0 :: rest) =>
    let l := s0 :: rest
    match l.find? (fun s => s.keyId == m.keyId) with
    | none => (.err .noSenderKeyForId, r, false, mem)
    | some s =>
      match m.serialize S with
      | .err e => (.err e, r, false, mem)
      | .panic => (.panic, r, false, mem)
      | .ok b =>
        if C.verify s.signing.pub b m.sig = false then (.err .signatureFailed, r, false, mem)
        else
          match getSenderKey C s m.iteration with
          | (res, s') =>
            let r' := some (modifyFirst (fun s => s.keyId == m.keyId) (fun _ => s') l)
            match res with
            | .err e => (.err e, r', false, mem)
            | .panic => (.panic, r', false, mem)
            | .ok none => (.panic, r', false, mem)
            | .ok (some mk) =>
              match decryptCbcM C (some mk.iv) mk.cipherKey mem body with
              | (.err e, mem') => (.err e, r', false, mem')
              | (.panic, mem') => (.panic, r', false, mem')
              | (.ok pt, mem') => (.ok pt, r', true, mem')

end Verif
