import Verif.Proofs.Toy
import Verif.Model.Store
import Verif.Model.JsonTypes
/-
A concrete conversation with the toy primitives, used by the non-vacuity examples: Alice builds a
session from Bob's bundle, sends two messages, Bob decrypts the first and replies, Alice decrypts the reply.
-/
namespace Verif.Toy

def alice : Addr := ⟨"alice", 1⟩
def bob : Addr := ⟨"bob", 2⟩
def aliceEnv : Env := env 11 1
def bobEnv : Env := env 22 2

def signedPre : IdKeyPair := idPair 40
def oneTime : IdKeyPair := idPair 50

def emptyStore : Store := ⟨fun _ => none, fun _ => none, fun _ => none, fun _ => none⟩
/-- Bob's stores: one-time prekey 9, signed prekey 7. -/
def bobStore : Store :=
  { emptyStore with preKeys := fun i => if i = 9 then some oneTime else none,
                    signedPreKeys := fun i => if i = 7 then some signedPre else none }

/-- Bob's bundle, with the one-time prekey. -/
def bundle : Bundle :=
  { registrationId := 100, deviceId := 2, preKeyId := some (OptU32.new 9), preKeyPublic := some oneTime.pub,
    signedPreKeyId := 7, signedPreKeyPublic := some signedPre.pub,
    signature := C.sign (idPair 22).priv (serPub signedPre.pub) sig0, identityKey := (idPair 22).pub }

/-- Alice after processing the bundle. -/
def alice1 : Store := (emptyStore.processBundle aliceEnv 0 bob bundle).2.1
/-- Alice's first message and her store afterwards. -/
def enc1 := alice1.encrypt aliceEnv bob [104, 105]
def alice2 : Store := enc1.2
/-- Alice's second message. -/
def enc2 := alice2.encrypt aliceEnv bob [1, 2, 3]
def alice3 : Store := enc2.2

def dummyMsg : PreKeyMsg :=
  ⟨⟨0, none, 0, none, none, none, 0⟩, key 0, key 0, ⟨⟨none, 0, 0, none, 0, none⟩, key 0⟩⟩
def asPreKey : Res CipherMsg → PreKeyMsg
  | .ok (.preKey m) => m
  | _ => dummyMsg
def asSignal : Res CipherMsg → SignalMsg
  | .ok (.signal m) => m
  | _ => dummyMsg.message

def msg1 : PreKeyMsg := asPreKey enc1.1
def msg2 : PreKeyMsg := asPreKey enc2.1

/-- Bob decrypts Alice's first message. -/
def dec1 := bobStore.decryptPreKey bobEnv 0 alice msg1
def bob1 : Store := dec1.2.1
/-- Bob replies. -/
def encB1 := bob1.encrypt bobEnv alice [9, 9]
def bob2 : Store := encB1.2
def reply1 : SignalMsg := asSignal encB1.1
/-- Alice decrypts the reply. -/
def decA1 := alice3.decrypt aliceEnv 2 bob reply1
def alice4 : Store := decA1.2.1
/-- Alice's third message, on her second sending chain. -/
def enc3 := alice4.encrypt aliceEnv bob [7]
def msg3 : SignalMsg := asSignal enc3.1

/-- The record stored for a peer. -/
def recOf (st : Store) (a : Addr) : Rec := match st.load a with
  | .ok r => r
  | _ => Rec.new
def stateOf (st : Store) (a : Addr) : SState := (recOf st a).state

set_option maxRecDepth 100000 in
example : (dec1.1.map (·.1)) = .ok [104, 105] := by decide +kernel
set_option maxRecDepth 100000 in
example : (decA1.1.map (·.1)) = .ok [9, 9] := by decide +kernel
set_option maxRecDepth 100000 in
example : ((bob2.decrypt bobEnv 1 alice msg3).1.map (·.1)) = .ok [7] := by decide +kernel


/-- The value of a successful decryption. -/
def opened : Res (Bytes × MsgKeys) → Bytes × MsgKeys
  | .ok x => x
  | _ => ([], ⟨[], [], [], 0⟩)

/-- Bob's state as created from Alice's prekey message, before anything is decrypted. -/
def bobInit : SState := (processV3 bobEnv bobStore.preKeys bobStore.signedPreKeys Rec.new msg1).2.state
/-- Messages Bob could send from it: they use the chain of the signed prekey, which Alice already has. -/
def encE1 := encryptState bobEnv bobInit [5]
def encE2 := encryptState bobEnv encE1.2 [6]
def early1 : SignalMsg := asSignal encE1.1
def early2 : SignalMsg := asSignal encE2.1
/-- Alice's state after processing the bundle. -/
def aliceInit : SState := stateOf alice1 bob
/-- Bob's state after decrypting Alice's first message. -/
def bobAfter : SState := (decryptWithState bobEnv (bobEnv.rng 0) bobInit msg1.message).2.1

set_option maxRecDepth 100000 in
example : (decryptWithState aliceEnv none aliceInit early2).1.map (·.1) = .ok [6] := by decide +kernel
set_option maxRecDepth 100000 in
example : (decryptWithState bobEnv (bobEnv.rng 0) bobInit msg1.message).1.map (·.1) = .ok [104, 105] := by decide +kernel

/-- The same users with the JSON serializer. -/
def aliceJ : Env := { aliceEnv with S := jsonSM, P := jsonPK }
def bobJ : Env := { bobEnv with S := jsonSM, P := jsonPK }
def encJ1 := alice1.encrypt aliceJ bob [104, 105]
def encJ2 := encJ1.2.encrypt aliceJ bob [1, 2, 3]
def msgJ1 : PreKeyMsg := asPreKey encJ1.1
def msgJ2 : PreKeyMsg := asPreKey encJ2.1
def decJ1 := bobStore.decryptPreKey bobJ 0 alice msgJ1
def bobJ1 : Store := decJ1.2.1

set_option maxRecDepth 100000 in
example : (decJ1.1.map (·.1)) = .ok [104, 105] := by decide +kernel

end Verif.Toy
