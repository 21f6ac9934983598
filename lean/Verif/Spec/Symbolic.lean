import Verif.Spec.Schedule
/-
A symbolic (Dolev-Yao) attacker for the key schedule, independent of the model.  Secrets are terms; the keyed hash is a free function symbol:
the attacker can apply it to what he knows and cannot invert it or guess.
-/
namespace Verif.Sym

open Verif.Schedule

/-- What a key is made of.  `atom l v` is a secret that was not derived (`l` tells secrets apart, `v` is its value), `pub v` is known to everyone. -/
inductive Term where
  | atom (label : List Nat) (value : Bytes)
  | pub (value : Bytes)
  | hash (k m : Term)
  | cat (a b : Term)
deriving DecidableEq

/-- The bytes a term stands for, given the keyed hash. -/
def Term.eval (H : Bytes → Bytes → Bytes) : Term → Bytes
  | .atom _ v => v
  | .pub v => v
  | .hash k m => H (k.eval H) (m.eval H)
  | .cat a b => a.eval H ++ b.eval H

/-- What an attacker can compute from a set of terms. -/
inductive Knows (K : Term → Prop) : Term → Prop
  | given {t} : K t → Knows K t
  | pub (v) : Knows K (.pub v)
  | hash {k m} : Knows K k → Knows K m → Knows K (.hash k m)
  | cat {a b} : Knows K a → Knows K b → Knows K (.cat a b)
  | fst {a b} : Knows K (.cat a b) → Knows K a
  | snd {a b} : Knows K (.cat a b) → Knows K b

/-- HKDF blocks `T(1)`, `T(2)`, `T(3)` (RFC 5869). -/
def T1 (prk : Term) (info : Bytes) : Term := .hash prk (.pub (info ++ [1]))
def T2 (prk : Term) (info : Bytes) : Term := .hash prk (.cat (T1 prk info) (.pub (info ++ [2])))
def T3 (prk : Term) (info : Bytes) : Term := .hash prk (.cat (T2 prk info) (.pub (info ++ [3])))

/-- The keys of one message: cipher key, MAC key, and the 32-byte block that starts with the IV. -/
structure MsgTerms where
  cipher : Term
  mac : Term
  iv : Term
deriving DecidableEq

/-- `CK(n+1) = HMAC(CK(n), 0x02)`. -/
def next (ck : Term) : Term := .hash ck (.pub [2])
/-- HKDF of `HMAC(CK(n), 0x01)`. -/
def msgPrk (ck : Term) : Term := .hash (.pub noSalt) (.hash ck (.pub [1]))
def msg (ck : Term) : MsgTerms :=
  ⟨T1 (msgPrk ck) (ascii "WhisperMessageKeys"), T2 (msgPrk ck) (ascii "WhisperMessageKeys"), T3 (msgPrk ck) (ascii "WhisperMessageKeys")⟩
/-- A root step: HKDF with the root key as salt and the Diffie-Hellman output as input. -/
def rootOf (root dh : Term) : Term := T1 (.hash root dh) (ascii "WhisperRatchet")
def chainOf (root dh : Term) : Term := T2 (.hash root dh) (ascii "WhisperRatchet")

/-- A receiving chain: the peer's ratchet key that names it, its chain key and the keys of skipped messages. -/
structure ChainTerms where
  name : Bytes
  ck : Term
  skipped : List MsgTerms

/-- The secrets of a session state. -/
structure State where
  root : Term
  send : Term
  recv : List ChainTerms

/-- Everything an attacker learns who steals the state. -/
def MsgTerms.list (k : MsgTerms) : List Term := [k.cipher, k.mac, k.iv]
def ChainTerms.list (c : ChainTerms) : List Term := c.ck :: c.skipped.flatMap MsgTerms.list
def State.secrets (s : State) : List Term := s.root :: s.send :: s.recv.flatMap ChainTerms.list

/-- The term for a Diffie-Hellman output: known to everyone unless in `U`. -/
noncomputable def dhTerm (U : Bytes → Prop) (v : Bytes) : Term := open Classical in if U v then .atom [] v else .pub v

/-- The use of a message key: for sending (`none`) or for a message on the named receiving chain. -/
structure Use where
  chain : Option Bytes
  keys : MsgTerms

/-- The steps of the double ratchet.  `U` are the Diffie-Hellman outputs that stay unknown to the attacker; the last argument is the message
key that is used, if any. -/
inductive Step (U : Bytes → Prop) : State → State → Option Use → Prop
  /-- sending: the key of the current position is used and the chain advances -/
  | send (root send : Term) (recv : List ChainTerms) : Step U ⟨root, send, recv⟩ ⟨root, next send, recv⟩ (some ⟨none, msg send⟩)
  /-- a message is skipped: its key is kept -/
  | skip (root send : Term) (pre post : List ChainTerms) (n : Bytes) (ck : Term) (l : List MsgTerms) :
      Step U ⟨root, send, pre ++ ⟨n, ck, l⟩ :: post⟩ ⟨root, send, pre ++ ⟨n, next ck, l ++ [msg ck]⟩ :: post⟩ none
  /-- the next message of a chain is received -/
  | receive (root send : Term) (pre post : List ChainTerms) (n : Bytes) (ck : Term) (l : List MsgTerms) :
      Step U ⟨root, send, pre ++ ⟨n, ck, l⟩ :: post⟩ ⟨root, send, pre ++ ⟨n, next ck, l⟩ :: post⟩ (some ⟨some n, msg ck⟩)
  /-- a skipped message is received: its key is used and removed -/
  | late (root send : Term) (pre post : List ChainTerms) (n : Bytes) (ck : Term) (l r : List MsgTerms) (k : MsgTerms) :
      Step U ⟨root, send, pre ++ ⟨n, ck, l ++ k :: r⟩ :: post⟩ ⟨root, send, pre ++ ⟨n, ck, l ++ r⟩ :: post⟩ (some ⟨some n, k⟩)
  /-- a new ratchet key `n` is received: new receiving and sending chains from two Diffie-Hellman outputs -/
  | ratchet (root send : Term) (recv : List ChainTerms) (n dh1 dh2 : Bytes) :
      Step U ⟨root, send, recv⟩ ⟨rootOf (rootOf root (dhTerm U dh1)) (dhTerm U dh2), chainOf (rootOf root (dhTerm U dh1)) (dhTerm U dh2),
        recv ++ [⟨n, chainOf root (dhTerm U dh1), []⟩]⟩ none
  /-- a skipped key is forgotten -/
  | forgetKey (root send : Term) (pre post : List ChainTerms) (n : Bytes) (ck : Term) (l r : List MsgTerms) (k : MsgTerms) :
      Step U ⟨root, send, pre ++ ⟨n, ck, l ++ k :: r⟩ :: post⟩ ⟨root, send, pre ++ ⟨n, ck, l ++ r⟩ :: post⟩ none
  /-- a chain is forgotten -/
  | forgetChain (root send : Term) (pre post : List ChainTerms) (c : ChainTerms) :
      Step U ⟨root, send, pre ++ c :: post⟩ ⟨root, send, pre ++ post⟩ none

/-- A sequence of steps and the message keys used, in order. -/
inductive Run (U : Bytes → Prop) : State → State → List Use → Prop
  | refl (s) : Run U s s []
  | step {s s' s'' e es} : Run U s s' es → Step U s' s'' e → Run U s s'' (es ++ e.toList)

/-- A state whose secrets are all underived and told apart by their labels. -/
structure Fresh (s : State) : Prop where
  atoms : ∀ t ∈ s.secrets, ∃ l v, t = .atom l v ∧ l ≠ []
  distinct : s.secrets.Pairwise fun a b => ∀ l v w, ¬ (a = .atom l v ∧ b = .atom l w)

/-- The secret `a` occurs in the term. -/
def Term.mentions (t a : Term) : Prop :=
  match t with
  | .atom l v => a = .atom l v
  | .pub _ => False
  | .hash k m => k.mentions a ∨ m.mentions a
  | .cat x y => x.mentions a ∨ y.mentions a

/-- An attacker who knows everything that does not contain the secret `a`, and has seen the tags of `S`: pairs of a MAC key and the bytes
authenticated with it. -/
def Seen (a : Term) (S : Term → Bytes → Prop) (y : Term) : Prop := ¬ y.mentions a ∨ ∃ k c, S k c ∧ y = .hash k (.pub c)

/-- X3DH: the root key and the first chain key. -/
def x3dhPrk (dhs : List Term) : Term := .hash (.pub noSalt) (dhs.foldl .cat (.pub (List.replicate 32 0xFF)))
def x3dhRoot (dhs : List Term) : Term := T1 (x3dhPrk dhs) (ascii "WhisperText")
def x3dhChain (dhs : List Term) : Term := T2 (x3dhPrk dhs) (ascii "WhisperText")

/-! ### Sender keys (groups) -/

/-- The seed of a group message key: `HMAC(chain key, 0x01)`.  IV and cipher key are cut from two HKDF blocks of the seed. -/
def groupSeed (ck : Term) : Term := .hash ck (.pub [1])
def groupBlock1 (seed : Term) : Term := T1 (.hash (.pub noSalt) seed) (ascii "WhisperGroup")
def groupBlock2 (seed : Term) : Term := T2 (.hash (.pub noSalt) seed) (ascii "WhisperGroup")

/-- One sender chain: its chain key and the seeds of skipped messages (which determine their keys). -/
structure GroupChain where
  ck : Term
  skipped : List Term

/-- A sender key record (and the chain keys that are still in the mail). -/
structure GroupState where
  pool : List Term
  chains : List GroupChain

def GroupChain.list (c : GroupChain) : List Term := c.ck :: c.skipped
/-- Everything an attacker learns who steals the record and all distribution messages that were not yet processed. -/
def GroupState.secrets (s : GroupState) : List Term := s.pool ++ s.chains.flatMap GroupChain.list

/-- The steps of a sender key record; the last argument is the seed that is used, if any. -/
inductive GroupStep : GroupState → GroupState → Option Term → Prop
  /-- a message is sent, or the next one received: the chain advances -/
  | use (pool : List Term) (pre post : List GroupChain) (ck : Term) (l : List Term) :
      GroupStep ⟨pool, pre ++ ⟨ck, l⟩ :: post⟩ ⟨pool, pre ++ ⟨next ck, l⟩ :: post⟩ (some (groupSeed ck))
  /-- a message is skipped -/
  | skip (pool : List Term) (pre post : List GroupChain) (ck : Term) (l : List Term) :
      GroupStep ⟨pool, pre ++ ⟨ck, l⟩ :: post⟩ ⟨pool, pre ++ ⟨next ck, l ++ [groupSeed ck]⟩ :: post⟩ none
  /-- a skipped message is received -/
  | late (pool : List Term) (pre post : List GroupChain) (ck : Term) (l r : List Term) (k : Term) :
      GroupStep ⟨pool, pre ++ ⟨ck, l ++ k :: r⟩ :: post⟩ ⟨pool, pre ++ ⟨ck, l ++ r⟩ :: post⟩ (some k)
  /-- a skipped key is forgotten -/
  | forgetKey (pool : List Term) (pre post : List GroupChain) (ck : Term) (l r : List Term) (k : Term) :
      GroupStep ⟨pool, pre ++ ⟨ck, l ++ k :: r⟩ :: post⟩ ⟨pool, pre ++ ⟨ck, l ++ r⟩ :: post⟩ none
  /-- a distribution message is processed -/
  | add (pool : List Term) (chains : List GroupChain) (a : Term) : GroupStep ⟨a :: pool, chains⟩ ⟨pool, chains ++ [⟨a, []⟩]⟩ none
  /-- a chain is forgotten -/
  | forgetChain (pool : List Term) (pre post : List GroupChain) (c : GroupChain) :
      GroupStep ⟨pool, pre ++ c :: post⟩ ⟨pool, pre ++ post⟩ none

inductive GroupRun : GroupState → GroupState → List Term → Prop
  | refl (s) : GroupRun s s []
  | step {s s' s'' e es} : GroupRun s s' es → GroupStep s' s'' e → GroupRun s s'' (es ++ e.toList)

/-- The secrets are underived and told apart by their labels. -/
structure GroupFresh (s : GroupState) : Prop where
  atoms : ∀ t ∈ s.secrets, ∃ l v, t = .atom l v ∧ l ≠ []
  distinct : s.secrets.Pairwise fun a b => ∀ l v w, ¬ (a = .atom l v ∧ b = .atom l w)

end Verif.Sym
