# Formal model of prospik/libsignal-protocol-go in Lean 4

## Layout

* `lean/Verif/Model/*.lean` – the model, function by function; every definition cites file and lines in /repo (`tools/citecheck.py` checks that each
  citation exists, `tools/coverage.py` lists the functions of /repo no citation covers).
* `lean/Verif/Spec/*.lean`  – small independent specifications used by property statements.
* `lean/Verif/Proofs/*.lean` – helper lemmas, a toy instance of the primitives and a toy conversation used by the non-vacuity examples.
* `lean/Verif/Props/*.lean` – the property theorems (`Cxx_...`) with non-vacuity examples beside them. `_partial` = part of the claim,
  `_false` = machine-checked proof that the code violates (part of) the claim, with the witness.
* `MANIFEST.json` – property → theorem map (generated by `tools/manifest.py` from the theorem names and `tools/status.json`).
* `seeded/LOG.jsonl` – experiments with deliberately broken models (`tools/mutants.py`, `tools/mutate.py`, `tools/mutlog.py`).

| model file | code |
|---|---|
| Basic | util/bytehelper, util/optional, strconv.Itoa; results (`Res`: ok, error, panic), fixed arrays |
| Crypto, Cbc | primitives as a parameter (`Crypto`); kdf/hkdf.go (HKDF written out), ecc/curve.go, cipher/cbc.go, cipher/cipher.go |
| Keys | keys/chain, keys/message, keys/root, keys/session, ratchet/ |
| Protocol, Proto | protocol/*.go (four message types), serialize/proto.go and the protobuf wire format byte by byte |
| Json, JsonTypes | encoding/json and encoding/base64 as used, serialize/json.go (all structures) |
| State, Record | state/record/*.go |
| Session, Store, World, Hostile, Crowd, Deeds, Threads, CrashWorld | session/cipher.go, session/session.go; serialising and live stores; two users and a network that may make up packets; what the users do besides; goroutines; crashes |
| ByteStore, ByteWorld | the same with stores that hold only serialised bytes |
| Concurrent | interleavings of Encrypt calls on a shared store |
| Buffers | slices with capacity and aliasing, for cipher/ and its callers |
| LiveWorld | two users with the in-memory session store of tests/stores.go |
| GroupWorld | any number of users of groups/ and the network between them |
| Groups, GroupStores, GroupThreads, GroupWorld, GroupCrash | groups/**; other sender-key stores, crashes and interleavings of group calls |
| Logging | logger/*.go (goroutines included) and the log calls of session/, protocol/signal_message.go and serialize/ |
| Async | VerifySignatureAsync, CalculateSignatureAsync, GenerateIdentityKeyPairAsync and the goroutines they start |
| PreKeys, Random, Misc, Provision | util/keyhelper, prekey records, addresses, fingerprints, provision/cipher.go |
| Limb, LimbGen, TableGen, Field, Scalar, Group, Point, Sign | ecc/edwards25519 (LimbGen and TableGen generated from the Go text by `tools/go2lean.py` and `tools/table2lean.py`), ecc/sign_curve25519.go |

## Modelling conventions

* `[]byte` = `List UInt8`; `[32]byte`/`[64]byte` = `Arr n` (list with length proof); a byte slice whose nil-ness the code tests is `Option Bytes`.
* `uint32` = `UInt32` (wrap-around is real); `int` = `Int`/`Nat` (64-bit overflow of `int` not modelled: values are lengths or versions).
* A Go call returns `Res α`: `ok`, `err e`, or `panic`. Functions mutating through a pointer return the mutated value alongside, also on error and panic.
* Session records are modelled with a small heap, because archived states are shared by pointer.
* Persistent effects of an API call are a list (trace) of store operations; a crash point is a prefix of the list.
* Two kinds of session store: *serialising* (load builds new objects; only StoreSession changes what is stored) and *live* (the object handed out is the stored object, as in `tests/stores.go`).
* Cryptographic primitives (X25519, HMAC-SHA256, AES block, signature) are fields of a `Crypto` record; laws are explicit hypotheses, never axioms, and a concrete instance satisfies them together.

## Plan per property

| id | property | model and proof plan |
|---|---|---|
| C01 | X3DH: both sides derive the same session keys | `Model/Ratchet.lean` (both calculations, optional key = `Option`). Theorem parametric in a `Crypto` record; only law used: DH commutes on base-point multiples. |
| C02 | Symmetric session agreement | Same model plus `isSender` on the first four serialised bytes. Full statement is false: negation with witness keys agreeing on three bytes; `_partial` for keys whose comparison differs. |
| C03 | Two-party conversation: every in-window message decrypts to what was sent | Abstract double-ratchet specification (levels, send counters, receive windows) and a simulation relation between it and the two session states; induction over arbitrary schedules. Lifted to the API (stores, serialisation). |
| C04 | Receive window behaves like its specification | Abstract window specification {next, skipped FIFO}; refinement of `getOrCreateMessageKeys` on a chain, lifted to all counter sequences. |
| C05 | No replay within a session state | Corollary of C04's refinement. UInt32 wrap-around makes the unrestricted claim false (negation); `_partial` for chains whose index has not wrapped. |
| C06 | Stored session memory is bounded | Inductive reachability over all mutators; invariant. |
| C07 | Future-message limit has an exact boundary | Exact characterisation of the accept condition with UInt32 arithmetic. |
| C08 | Encrypt never reuses a counter or message key position | Induction over number of Encrypt calls on the state/stores model. |
| C09 | A failed decrypt leaves the persisted session unchanged | Trace/effects semantics of the cipher: error implies no `StoreSession` effect (serialising store). For a live-pointer store: negation with witness. |
| C10 | Message authenticity: the MAC covers every field and both identities | MAC input is an injective encoding (varint/proto injectivity); decrypt success implies MAC equality. |
| C11 | Session setup refuses an untrusted identity without side effects | Effects trace is empty on the untrusted path. |
| C12 | Encrypt and Decrypt enforce identity trust | False: negation theorem for every Crypto; partial describes what happens. |
| C13 | A bundle without a valid signed-prekey signature creates no session | Effects trace empty and error result when signature invalid/missing. |
| C14 | A one-time prekey is removed exactly when its message was decrypted | Order and content of the effects trace of DecryptMessage. |
| C15 | A repeated prekey message does not create a second session | `processV3` returns the record unchanged when the base key is known, and DecryptMessage removes no prekey. |
| C16 | Sessions without a one-time prekey work | False in both serializers: negation theorems (panic / error); partial: in-memory message. |
| C17 | Prekey wrapping lasts until the first successful decrypt | Invariant over operation sequences on the state. |
| C18 | Decrypting with an archived state promotes it exactly once | Model of slice aliasing in DecryptWithRecord; negation plus exact characterisation (partial: matching state is found, promoted, current pushed). |
| C19 | A failed attempt with one state does not alter it | False: negation witness; partial: errors raised before the ratchet step leave the state unchanged. |
| C20 | Previous counter reports the length of the previous sending chain | UInt32 underflow: negation at index 0; partial for index>0. |
| C21 | Session record serialisation round-trips | `structure` / `fromStructure` model; round-trip theorem on initialised states, panic characterisation otherwise. |
| C22 | Prekey and signed prekey records round-trip | False: exact `iff` characterisation of which keys survive; private key, id, signature, timestamp do. |
| C23 | Sender key record serialisation round-trips | False for receive-only states: negation; partial for owned states. |
| C24 | Signal messages survive the wire | Byte-level protobuf model (varint, tag, length), round-trip + MAC verification theorem. |
| C25 | Prekey signal messages survive the wire | Same, prekey message; the absent prekey id becomes present 0 (negation), partial for present id. |
| C26 | Sender key and distribution messages survive the wire | Same for group messages. |
| C27 | Parsing hostile bytes returns an error rather than crashing | False: negation witnesses; partial: exact panic-free condition. |
| C28 | Message encryption round-trips and never leaks padding | CBC over abstract block cipher with inverse law, padding arithmetic. |
| C29 | Group messages decrypt to what was sent | Abstract group-chain spec, induction over schedules. |
| C30 | Group: no replay and bounded state | Window refinement for groups + bounds. |
| C31 | Group messages are signature-checked before any state change | Decision logic; state unchanged on error. |
| C32 | Group encryption never reuses an iteration | Induction over Encrypt calls. |
| C33 | A new distribution message takes effect | False for repeated key id: negation; partial for fresh id. |
| C34 | Fingerprint display is symmetric and 60 decimal digits | Digit arithmetic; lexicographic order totality. |
| C35 | Address strings identify addresses | Decimal encoding injectivity, no ':' in digits. |
| C36 | Generated keys are clamped and the public key matches | Byte-level clamping for all inputs. |
| C37 | Bulk prekey generation yields exactly the requested identifiers | Loop model; negation (count-start+1 keys); exact characterisation. |
| C38 | Provisioning messages authenticate before decryption | Byte-level model with panics; characterisation. |
| C39 | Crash during Encrypt never causes key reuse | Crash = prefix of effects trace; induction over histories of crashes and encrypts. |
| C40 | Crash during decryption of a prekey message is recoverable | Crash = prefix of effects trace of DecryptMessage. |
| C41 | Concurrent Encrypt calls do not share a message key | Small-step two-thread model; negation witness for every session, partial for serialised schedules. |
| C42 | Per-address isolation | Frame theorem over effects traces. |
| C43 | Curve arithmetic: field operations are correct and do not overflow | `tools/go2lean.py` translates each Go function into a program of fixed-width assignments (Model/LimbGen); interval analysis (proved sound) excludes overflow, polynomial identities over the limbs give the value mod 2^255-19. |
| C44 | Scalar arithmetic modulo the group order is correct | Same for ScReduce and ScMulAdd; congruence mod L and canonical result. |
| C45 | Signatures verify | Limb-level GeScalarMultBase with the generated table against the affine Edwards curve (group law proved); ed25519.Verify, SHA-512 and X25519 base multiplication are a `GoLib` parameter with stated laws. |
| C46 | Encrypt does not modify the caller's plaintext buffer | Slice-with-capacity model of `append`; negation plus partial (no spare capacity). |
| C47 | Decrypting a group message does not modify the message object | Heap model of in-place CBC; negation for groups, positive for sessions. |
| C48 | Byte helpers split and reassemble exactly | Direct. |
| C49 | Key material of consumed messages is not retained | Structural invariant on states after decrypt. |
| C50 | Every decrypted message is attributed to the session's peer | Effects trace analysis. |
| C51 | Private-key operations are deterministic functions of stored state and randomness | Rng position accounting. |
| C52 | A new session keeps the old one usable | Effects of ProcessBundle on the stored record. |
| C53 | A saved message key decrypts the same message again | DecryptAndGetKey then DecryptWithKey. |
| C54 | The key schedule is the published one | Independent specification (Spec/Schedule) written from RFC 5869 and the protocol documents; equality for all inputs. |
| C55 | A session records who it is with, and keeps it | Fields of the stored state; invariance over histories. |
| C56 | A failed group operation stores nothing | Store level, all failing paths. |
| C57 | Parsing follows the protobuf rules for repeated and unknown fields | Spec/Fields: last occurrence wins; equality with the wire parser for every well-formed body. |
| C58 | A prekey message that names unknown prekeys changes nothing | Store level. |
| C59 | Point encodings are decoded to the point they name | Limb-level FromBytes/ToBytes against the affine curve. |
| C60 | Records survive the JSON bytes they are stored as | Byte-level JSON and base64; parse ∘ print = identity, by structural induction on the value. |
| C61 | A torn write of a stored record is detected | No proper prefix of a printed JSON object parses. |
| C62 | Exactly the well-formed messages are accepted | Iff characterisation of each parser (Spec/Accept). |
| C63 | Stores that keep only bytes behave like stores that keep records | Simulation between the byte store and the record store over adaptive call sequences. |
| C64 | Forward secrecy | Symbolic attacker (Spec/Symbolic): keys are terms over a free keyed hash; every model step is a step of a small symbolic ratchet whose terms evaluate to the model's bytes; no used key is derivable from the final state. |
| C65 | Post-compromise security | Same; a term mentioning the unknown Diffie-Hellman output is not derivable without it. |
| C66 | A session is secret as long as one of its Diffie-Hellman outputs is | Same, starting from X3DH. |
| C67 | Forward secrecy of group messages | Same attacker; a symbolic model of sender key records over arbitrary store histories. |
| C68 | Made-up packets do not disturb a conversation | C03's invariant extended by an `inject` event with arbitrary bytes (Model/Hostile). |
| C69 | A one-time prekey is used up only by a message of its own session | Case analysis of DecryptMessage; refuted once a session exists. |
| C70 | A failing random source never yields key material | Reads of the random source that deliver too few bytes (Model/Random). |
| C71 | A session can be set up anew whatever sessions exist | C03's simulation with arbitrary archived sessions below the current one. |
| C72 | Both users may set up a session at the same time | Two instances of C71's invariant on the same stores; recovery: the answer is decrypted through the archived session, after which C71's invariant holds again; negation by a toy conversation. |
| C73 | Sender-key stores that keep only bytes behave like stores that keep records | Byte store (Model/GroupStores); simulation over adaptive applications, from C60's round trip. |
| C74 | Sender-key stores that hand out the stored object behave like stores that serialise | Live store; simulation up to missing private keys; negation by a signed message that does not decrypt. |
| C75 | A crash during a group call never causes key reuse and loses at most the message being processed | Histories with crash points; counter invariant for the sender, reduction to C29 for the receiver. |
| C76 | Concurrent group Encrypt calls do not share a message key | Interleavings of load and store steps; negation for every record; invariant under a lock. |
| C77 | Conversations with the in-memory session store | Two live stores (Model/LiveWorld); simulation between them and the world of C03, from C03's invariant; negation by a replay. For any application whose calls all succeed: a simulation between the two stores alone. |
| C78 | Group conversations with any number of members work over any network schedule | `Spec/GroupTalk` (rooms, lines, ears) refined by `Model/GroupWorld`; invariant per line (chain key, key id, signing key, windows of all listeners) preserved by every event. |
| C79 | A conversation is not affected by what its users do besides it | C68's world with `errand` events (Model/Crowd): every call for another peer frames what C03's invariant reads; all stored sessions stay reachable (C06), which bounds the random draws. |
| C80 | With a lock per peer, concurrent use of the session API is equivalent to calls made one after the other | Each call as a sequence of atomic store accesses (Model/Threads; `prog_run` proves it equal to C03's call when uninterrupted); a simulation shows that every interleaved run has a sequential counterpart; the condition on one-time prekeys is shown to be needed. |
| C81 | A conversation goes on after crashes | C03's world with calls cut off after any number of store operations (Model/CrashWorld), specification with crashes (Spec/TalkCrash); C03's invariant holds at every crash point, with or without the effect of the call. |
| C82 | With a lock per sender key name, concurrent use of the group API is equivalent to calls made one after the other | Group calls as load and store with local work in between (Model/GroupThreads, `loaded_call`); simulation by the sequential run. |
| C83 | Damaged stored records give an error | The loaders on arbitrary JSON (null and missing parts included): exact characterisation of the bytes that crash. |
| C84 | Session state methods return what was last written | The exported methods as calls on the state, a specification over histories of calls (Spec/Cabinet); induction over histories. |
| C85 | What a session accepts was sent by the peer's session | The attacker of C66 who has also seen the tags of all messages; tags are hash terms keyed with message keys, kept apart from the key schedule by shape (Proofs/SymAuth); the MAC input is injective (C10). |
| C86 | Stored records and JSON messages may be reformatted | JSON grammar as an independent relation (Spec/JsonText); the scanner reads every text of it (induction on derivations), the decoder every document that says the same (Proofs/JsonText, JsonLike, JsonOwn). |
| C87 | The loaders read JSON, all of it and nothing else | Soundness of the scanner against the same grammar (induction on its fuel), and the decoders as functions of the document (Proofs/JsonDen). |
| C88 | The logger follows its configuration | Histories of calls against a specification reading the history backwards (Spec/LogSpec); goroutine interleavings of the unsynchronised variable. |
| C89 | No secrets reach the log | The log calls of every session path as lists; what the default logger prints is made of fixed texts and errors (case analysis of all paths); negations for an installed logger. |
| C90 | Asynchronous calls answer once, with the synchronous result | Executions of calls, writes to memory and goroutine runs; invariant per call, by induction over the execution. |
| C91 | Session calls never crash | Invariant over all histories: every stored state was set up by the library (identities, keys, lengths); crash cases by exact characterisation of one decryption. |
| C92 | Null members may be left out | Relation between two documents with the same non-null part; each decoder reads a field given null like one not given; induction over the structures. |
| C93 | Group calls never crash | Invariant over all histories, both kinds of store: every stored record has a state, every skipped key has the right lengths; crash cases by exact characterisation of one decryption. |
| C94 | Accepted group messages were sent by the owner, each once | Invariant over all receiver histories following one sender key: its state stays the first with the id, keeps its public key, and its chain stays in a window; the signed content determines key id, iteration and ciphertext (injectivity of both serializers); numbers once accepted are closed for ever. Unforgeability is a hypothesis about the delivered messages only. Partial: false once 2000 further distribution messages pushed the used state out (C94_overflow_false). |
| C95 | Group conversations survive crashes | The world and specification of C78 with crash events (Model/GroupCrash, Spec/GroupTalkCrash); the invariant of C78 is preserved when the result of an event is forgotten. |
| C96 | Only sessions with accepted identities | Invariant over all lives of a user (calls, store operations, deaths within a call): every stored state is reached by encryption and decryption attempts from a state that a call under this address set up after a positive trust answer (generic lemma: any predicate kept by the ratchet and true of new states holds of all stored states). Partial: false for stores that hand out the live object (C96_live_false). |
| C97 | Authenticity over whole lives of all users | From C96 every accepted message belongs to a history of a session with a known set-up; its symbolic run (C66, C85) gives the keys; the attacker has seen the tags of all `Encrypt` calls of all users (`User.Tag`), and `no_forgery` finds the user who made this one. |
| C98 | No two messages with the same key | Position of the current session's sending chain (ratchet key, index) as a function of the store; every deed leaves it, advances it, removes it or replaces it by one with a ratchet key drawn in that deed (`deed_sending`); invariant over prefixes of a life (`Unused`): positions are below the counters used so far, keys come from earlier draws, different addresses have different keys. Proved while no archived session decrypts; refuted in general by a concrete life with a replayed message. |
| C99 | No two group messages with the same key | Invariant over prefixes of a group life (`Ahead`): the first state of the record keeps its key id and its iteration is the start plus the number of steps made (modulo 2^32), more than that of every message returned so far. Proved for fewer than 2000 Process calls under the name; refuted for 2000 (general theorem, not an example). |
| C100 | A conversation under everything at once | Model/Whole joins the event types of Model/Hostile, Crowd and CrashWorld, with crashes also in calls on made-up packets and in calls for other peers. The invariant of C03 is kept by each: `Inv.deed` (frame of any prefix of a call's store operations), `Inv.injectCut` (a cut-off forged call can at most save Alice's identity), `Inv.lose` (C81), `Inv.hstep` (C79). |
| C101 | A message key is used once | Symbolic: in a run from independent secrets uses share no key (`run_once`, from `run_safe`: used keys are dead, later keys have living ancestors). Lives: every deed that keeps the session is a `History` of its state (`deed_history`), so two uses belong to one run. Refuted without the condition on archived sessions. |
| C102 | Two fresh installations can talk | Model/Install: the calls of README.md and tests/user.go as one function. Inversion of the generating calls gives proper key pairs, stored and signed; `ProcessBundle` of such a bundle is shown to succeed, the hypotheses of C03 follow, and C03 gives every schedule. |
| C103 | A signature belongs to one message; nonces do not repeat | On top of the exact characterisations C45_sign and C45_verify: the public key's point is a nonzero multiple of the base point, whose order is the prime L, so equal R and S force equal digests modulo L; encodings are injective, so equal R halves force equal nonces. Collisions of SHA-512 are exhibited, not assumed away. |
| C104 | A cipher's calls concern its own address, however constructed | Model/Handles.lean separates the cipher's address from its builder's and lets the builder be nil, as the constructors do. Equality with the one-address model when they match; otherwise the call is shown to be the one-address call under the policy of the builder's address with the identity effect redirected (map over the effect list). Negations: all stores (nil builder), concrete stores (other builder). |
| C105 | Groups set up over sessions work | Model/JoinWorld.lean joins the worlds of C03 and C78: an invitation is created, serialised, framed and encrypted in the session; a decrypted invitation is parsed and processed. Spec/JoinTalk.lean joins the two specifications. Invariant: those of C03 and C78, and what each pairwise message holds. |
| C106 | Signing and MAC checks take the same steps whatever the secrets | Model/Steps: the functions on the way of the private key, with every statement, array index and branch recorded (a writer monad, Spec/Steps); proved equal in value to Model/Sign and Model/Protocol, and equal in steps for any two secrets, by composing the equality over every function and by induction over the loops. |
| C107 | The work for one message is bounded | Model/Work: the functions again in the `Timed` monad of Spec/Steps; equality of values function by function; bounds by induction on the loops and C06 for the number of states |
| C108 | Key agreement is X25519, and the whole library works on the RFCs' primitives | Spec/X25519 states RFC 7748's function on points of the Edwards curve; `calculateSharedSecret` is modelled on it; the laws DhLaw and SigLaw, which the rest of the model assumes, become theorems, so C102 holds from the RFCs' laws. A lawful library is constructed and two of its users talk (`rfc_users_talk`). |
| C109 | Comparing fingerprints tells identities apart | `Model/Fingerprint.lean`: the display and fingerprint objects with both getters. Exact `iff` for equal texts (digits are read back; unordered pair), comparison theorem for every injectively shown generator; negations for the ignored tail, the modulus, keys used directly, and Scan. |

## Trusted base

* Lean 4.33.0's kernel. Every theorem depends at most on `propext`, `Classical.choice` and `Quot.sound`; no axioms are added, no compiled
  evaluation is used (concrete examples are checked by `decide +kernel`, i.e. by the kernel).
* The hand transcription of the Go code into the model (no code was run). ecc/edwards25519's arithmetic and tables are transcribed mechanically
  by `tools/go2lean.py` and `tools/table2lean.py`, which are trusted.
* The semantics given to Go: wrap-around of fixed-width integers, slices, nil, panics on nil dereference and out-of-range slicing.
* Addresses and sender key names are values: the in-memory stores of tests/stores.go key their maps by pointer, so the theorems about them assume an application
  that uses one object per address.
* Third-party code as described in the model: `golang/protobuf` 1.3 wire behaviour, `encoding/json`, `encoding/base64` (modelled byte by byte),
  CBC mode of `crypto/cipher` (modelled over an abstract block cipher), `x/crypto/hkdf` (modelled, RFC 5869).
* Primitives are parameters; a theorem that needs a law states it as a hypothesis: `DhLaw` (Diffie-Hellman commutes), `AesLaw` (block decryption
  inverts encryption), `SigLaw` (signatures verify; for groups), the `GoLib` laws of C45 (`ed25519.Verify` checks the Ed25519 equation, base
  multiplication). For the repository's own signing code and key agreement `SigLaw` and `DhLaw` are theorems (C45, C108), from RFC 8032 and RFC 7748 as written in
  Spec/Sign and Spec/X25519. HMAC-SHA256 is an arbitrary function with 32-byte results. A concrete instance satisfies all of them (Proofs/Toy), so they are
  consistent; so does one built on the curve itself (Props/KeyAgree `rfcCrypto`).
* C64–C67 additionally idealise: the attacker computes with HMAC as a free function (no inversion, no collisions between different terms), and
  which Diffie-Hellman outputs he lacks is a parameter. That is the usual symbolic abstraction, not a computational proof. In C85 tags are hash terms too (their truncation to eight bytes is not an attack) and ciphertexts are public bytes.

### Not modelled

What the application's own logger does with a line (which lines are logged is modelled, Model/Logging), goroutines other than those of the `*Async`
wrappers (Model/Async) and the interleavings of Model/Concurrent, Threads and GroupThreads, `sign32`/`verify32` (unused), generated `.pb.go` code for
structures no serializer uses, timing beyond the steps counted in C106 and C107, garbage collection, memory exhaustion, 64-bit overflow of `int`. Getters, setters
and constructors that only move fields are folded into the model's records. Errors carry no text; which error kind is returned is modelled.

## Where the code disagrees with a property

Each line is a proved theorem `_false` unless marked (*).

* C02: `isSender` compares only four serialised bytes (the first is always 5): keys equal there elect no sender.
* C05/C30: message counters wrap at 2^32; replay protection ends there.
* C07/C19: a message on a new chain is ratcheted before it is checked: too-far-future or forged messages change the in-memory state, a forged message
  consumes the key of the real one; if an archived state then decrypts, the damaged current state is stored.
* C09/C52: stores that hand out live records see these changes at once.
* C12: Encrypt and Decrypt never consult the trust decision, and Decrypt overwrites the saved identity.
* C16/C25: without a one-time prekey the flow fails: the wire turns the absent id into 0 (protobuf) or the receiver dereferences nil.
* C18/C64: promoting an archived state (fewer than 40 archived) leaves a duplicate of the oldest archived state; after a reload the same message
  decrypts twice, and the stored record still yields the keys of messages already decrypted.
* C20: previous counter is 2^32-1 when nothing was sent.
* C22: reloaded prekey and signed prekey public keys are `5 ::` the first 31 bytes (harmless for C63, because only the private half is used).
* C23: a receive-only sender key comes back with a private key of 32 zero bytes.
* C24: version-2 messages come back as version 3 through protobuf; the in-memory distribution message has version 0.
* C27/C28/C38/C60: short or odd inputs panic (message parsers, CBC with a bad length or nil IV, provisioning text, stored `null`/`{}`).
* C33: a distribution message for a key id already present is shadowed by the old state.
* C37: GeneratePreKeys(start, count) makes count-start+1 records.
* C41: no locks: two concurrent Encrypts use the same key.
* C80: even with a lock per peer, two goroutines can both use the same one-time prekey (it is removed only after the session is stored).
* C46/C47: padding is appended into the caller's spare capacity; group decryption overwrites the message's ciphertext with plaintext.
* C40: a crash between storing the session and removing the prekey keeps the one-time prekey forever.
* C50: the identity field of a prekey message for a known session is not authenticated, yet it is saved.
* C45: signatures with private keys that are not clamped need not verify.
* C48: Split panics on short input.
* C59/C62: non-canonical point encodings and short (zero-padded) public keys are accepted.
* C68: on first use a refused forgery (public data only) pins the forger's identity; the peer's genuine messages are refused from then on.
* C69: a genuine message rewrapped in another prekey part is accepted through the existing session and removes the one-time prekey the wrapper names.
* C70: GenerateSenderKey and GenerateSenderKeyID ignore errors of the random source: a group session with an all-zero chain key.
* C72: when both users set up a session at once and talk at the same time, each incoming message of one session first corrupts the other (C19); after two
  rounds neither can read anything the other sends.
* C74: an in-memory sender-key store loses the key of a message once a validly signed but undecryptable message of the same iteration was seen.
* C76: no locks in groups/ either.
* C77: with a store that hands out the live session, repeating a message more than five turns old replaces the recipient's keys: his next
  message cannot be read (a replay suffices; no forgery is needed).
* C61: nothing but truncation is detected (*): there is no checksum.
* C83: stored records with null, missing or empty parts crash the loaders (nil dereference, DecodePoint indexing an empty slice) instead of giving an error.
* C84: methods naming an absent receiver chain crash although they test for nil (after dereferencing it); RemoveMessageKeys of an absent number hands out and forgets the oldest other key; SetSenderBaseKey of invalid bytes erases the key silently.
* C84: SetSenderBaseKey of no bytes crashes.
* C88: Configure("") (or a trailing comma) prints everything; a Setup can be undone by a goroutine that saw no logger; Setup(nil) can crash a log call.
* C89: at Debug level an installed logger gets the cipher key of every message, the right MAC of every rejected forgery, all stored session
  states and all group invitations (protobuf). The default logger prints none of it.
* C90: the Async functions read the caller's buffer after they returned.
* C91: Encrypt without a session crashes; a prekey message naming an unknown signed prekey crashes the recipient; a peer's message whose ciphertext
  is longer than a block but no whole number of blocks crashes the recipient, each time it is processed; after a ProcessBundle that failed on the random
  source, a store handing out the live object has no usable session and Encrypt crashes.
* C93: group Encrypt and Decrypt without a record crash (nil record); a sender crashes every member with a signed message whose ciphertext is no whole
  number of blocks, again each time it is processed; with a store that hands out its objects, Encrypt under a name known only through Process crashes.
* C94: whoever can deliver a distribution message 2000 times can replay every message after it: each Process adds a state, and the used one is dropped.
* C96: with a store that hands out the live object, after an identity change the owner of the old identity can still send messages that are accepted as authenticated with the new one (ProcessBundle overwrites the state of a record still marked fresh but keeps the old receiving chains).
* C98: a replayed message can bring a stale copy of the current session back (see C18), after which Encrypt reuses a counter, message key and IV for a different plaintext (`C98_replay_reuse_false`).
* C99: processing 2000 distribution messages under a name one sends with (e.g. one's own, repeated by a peer the application does not check) drops the sending state; an older copy takes its place and Encrypt reuses iterations and keys (`C99_overflow_false`).
* C101: after an archived session was promoted (duplicate of C18), a message delivered twice in a row is accepted twice, with the same key.
* C102: a bundle published from prekey records that were saved and read back does not work (consequence of C22): with the signed prekey `ProcessBundle` fails with an invalid signature; with the one-time prekey it succeeds, and the owner cannot decrypt the first message.
* C103: `VerifySignature` accepts public keys of small order (the all-zero key: anyone can sign half of all messages) and ignores the top bit of public keys (each key has a second form with other bytes, hence another identity for the trust decision and the fingerprint, that accepts the same signatures).
* C104: `session.NewCipherFromSession` (session/cipher.go:35-48) does not set `builder`, so `DecryptMessage` on such a cipher dereferences nil and panics for every message; `NewCipher` does not compare its address with its builder's, and with differing addresses `DecryptMessage` asks for trust in, and saves, the identity of the builder's address while creating the session of the cipher's; `groups.NewGroupCipher` accepts a nil builder, on which only `Encrypt` panics.
* C107: An unauthenticated message costs its receiver up to 30 000 HMACs per state, and is tried on up to 41 states, because keys are derived before the MAC is checked and the derivation works on the state itself, not on a copy (see C19 for what it leaves there). It is bounded, but a stranger who saw one ratchet key can ask for it again with each packet.
* C108: `CalculateSharedSecret` accepts public keys of small order; the secret is then 32 zero bytes, and a bundle or prekey message made of such keys gives root and chain keys that depend on nobody's private keys. RFC 7748 (6.1) recommends to refuse them.
* C109: only the first 30 bytes of a fingerprint are shown, in five-byte groups modulo 100000 (a serialised identity key shown directly hides its last three bytes); `Scan` always returns the empty string.
* (*) CreateKeyPair logs the private key at Debug level; CalculateSignature ignores errors of the random source (harmless: C70_signature).
