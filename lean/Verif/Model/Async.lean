import Verif.Model.Random
/-
The asynchronous calls: ecc.VerifySignatureAsync, ecc.CalculateSignatureAsync, keyhelper.GenerateIdentityKeyPairAsync.  Each starts a goroutine that
computes and calls the completion object (github.com/RadicalApp/complete, not in the sandbox: its interface has OnSuccess and OnFailure).

The message is a slice of the caller's memory: the goroutine reads it when it runs.  Simplified: a goroutine runs in one step (a write while it is computing is
not modelled), and memory is a set of numbered buffers.
-/
namespace Verif

/-- The arguments captured by a goroutine; ecc/curve.go:94, 123 and util/keyhelper/key.go:28.  `buf` names the buffer of the message. -/
inductive AsyncJob where
  | verify (key : Key32) (buf : Nat) (sig : Sig64)
  | sign (priv : Key32) (buf : Nat)
  | identity

/-- A call of the completion object: OnFailure, or OnSuccess with a result; ecc/curve.go:97-102, 126-131, util/keyhelper/key.go:31-36. -/
inductive AsyncAnswer where
  | failed
  | valid (b : Bool)
  | signature (s : Sig64)
  | keyPair (k : IdKeyPair)
  | crashed

/-- The 64 zero bytes ecc/curve.go:126 compares with. -/
def zeroSig : Sig64 := ⟨List.replicate 64 0, by simp⟩

/-- What the goroutine does when it runs: ecc/curve.go:95-103, 124-132, util/keyhelper/key.go:29-37.  `got` is what the random source delivers. -/
def AsyncJob.run (C : Crypto) (mem : Nat → Bytes) (got : Bytes) : AsyncJob → AsyncAnswer
  | .verify key buf sig =>
    let r := C.verify key (mem buf) sig
    if r = false then .failed else .valid r
  | .sign priv buf =>
    let s := calculateSignatureFrom C priv (mem buf) got
    if s = zeroSig then .failed else .signature s
  | .identity =>
    match generateIdentityKeyPair C (drawOf got) with
    | .ok kp => .keyPair kp
    | .err _ => .failed
    | .panic => .crashed

/-- What happens in the program: an asynchronous call (ecc/curve.go:94, 123, util/keyhelper/key.go:28), a write to a buffer by the application, or the scheduler
running the goroutine of call number `i`. -/
inductive AsyncEvent where
  | call (j : AsyncJob)
  | write (buf : Nat) (b : Bytes)
  | run (i : Nat) (got : Bytes)

/-- The buffers, the calls made (and whether their goroutine has ended), and the calls of completion objects; ecc/curve.go, util/keyhelper/key.go. -/
structure AsyncWorld where
  mem : Nat → Bytes
  jobs : List (AsyncJob × Bool)
  answers : List (Nat × AsyncAnswer)

/-- One event; ecc/curve.go:94-104, 123-133, util/keyhelper/key.go:28-38. -/
def AsyncWorld.step (C : Crypto) (w : AsyncWorld) : AsyncEvent → AsyncWorld
  | .call j => { w with jobs := w.jobs ++ [(j, false)] }
  | .write b x => { w with mem := fun n => if n = b then x else w.mem n }
  | .run i got =>
    match w.jobs[i]? with
    | some (j, false) => { w with jobs := w.jobs.set i (j, true), answers := w.answers ++ [(i, j.run C w.mem got)] }
    | _ => w

/-- A whole execution; ecc/curve.go, util/keyhelper/key.go. -/
def AsyncWorld.steps (C : Crypto) (w : AsyncWorld) : List AsyncEvent → AsyncWorld
  | [] => w
  | e :: es => (w.step C e).steps C es

end Verif
