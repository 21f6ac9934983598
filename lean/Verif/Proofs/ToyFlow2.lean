import Verif.Proofs.ToyFlow
/-
Continuation of the toy conversation with a second session: Alice sends two messages on the first session that are
delayed, builds a second session from another bundle, and Bob gets the messages of the second session first.
-/
namespace Verif.Toy

def oneTime2 : IdKeyPair := idPair 52
def bundle2 : Bundle := { bundle with preKeyId := some (OptU32.new 10), preKeyPublic := some oneTime2.pub }
/-- Bob has published another one-time prekey, number 10. -/
def bob2' : Store := { bob2 with preKeys := fun i => if i = 10 then some oneTime2 else bob2.preKeys i }

/-- Alice's fourth message on the first session (the third is `msg3`). -/
def enc4 := enc3.2.encrypt aliceEnv bob [8]
def msg4 : SignalMsg := asSignal enc4.1
/-- Alice after building the second session. -/
def alice5 : Store := (enc4.2.processBundle aliceEnv 3 bob bundle2).2.1
/-- First message of the second session. -/
def encN1 := alice5.encrypt aliceEnv bob [21]
def n1 : PreKeyMsg := asPreKey encN1.1
/-- Bob decrypts it: the first session is archived. -/
def decN1 := bob2'.decryptPreKey bobEnv 1 alice n1
def bob3 : Store := decN1.2.1
/-- Bob replies on the second session, Alice decrypts the reply and answers. -/
def encB2 := bob3.encrypt bobEnv alice [31]
def reply2 : SignalMsg := asSignal encB2.1
def bob4 : Store := encB2.2
def decA2 := encN1.2.decrypt aliceEnv 5 bob reply2
def encN2 := decA2.2.1.encrypt aliceEnv bob [22]
def n2 : SignalMsg := asSignal encN2.1
/-- The delayed third message arrives: decrypted with the archived first session. -/
def decM3 := bob4.decrypt bobEnv 2 alice msg3
def bob5 : Store := decM3.2.1
/-- Then the fourth. -/
def decM4 := bob5.decrypt bobEnv 5 alice msg4
def bob6 : Store := decM4.2.1

set_option maxRecDepth 100000 in
example : (decN1.1.map (·.1), decA2.1.map (·.1), decM3.1.map (·.1), decM4.1.map (·.1)) =
    (.ok [21], .ok [31], .ok [7], .ok [8]) := by decide +kernel

/-- The live store with the same contents. -/
def live (st : Store) : LiveStore :=
  ⟨fun a => (st.sessions a).map fun _ => recOf st a, st.identities, st.preKeys, st.signedPreKeys⟩

end Verif.Toy
