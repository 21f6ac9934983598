{
 "C01": {
  "status": "proved",
  "note": "For every Crypto record whose DH commutes on base-point multiples; with and without one-time prekey."
 },
 "C02": {
  "status": "partial",
  "note": "The full statement is false of the code (C02_symmetric_agreement_false, C02_tie_elects_nobody: only 4 serialised bytes are compared). Proved when the comparison tells the base keys apart."
 },
 "C04": {
  "status": "proved",
  "note": "Refinement of the receive window specification (Spec/Window.lean) for all counter sequences."
 },
 "C05": {
  "status": "proved",
  "note": "For fewer than 2^32 messages on the chain; C05_wrap_false shows the claim fails beyond."
 },
 "C07": {
  "status": "partial",
  "note": "Boundary exact; 'unchanged' holds on existing chains, and is false for a message opening a new chain (C07_new_chain_false)."
 },
 "C09": {
  "status": "partial",
  "note": "Proved for the serialising stores (the repository's own session store interface contract); see C09_live_false for stores that hand out live pointers."
 },
 "C10": {
  "status": "proved",
  "note": "Version-3 states: MAC input injective in identities, version and all parsed fields, and decrypt returns plaintext only if the MAC verifies."
 },
 "C11": {
  "status": "proved",
  "note": "Bundles and prekey messages."
 },
 "C12": {
  "status": "partial",
  "note": "False of the code: C12_trust_ignored_false, C12_overwrites_false. Only the establishment half (C11) holds."
 },
 "C13": {
  "status": "proved",
  "note": ""
 },
 "C14": {
  "status": "proved",
  "note": ""
 },
 "C15": {
  "status": "proved",
  "note": ""
 },
 "C16": {
  "status": "partial",
  "note": "False of the code (C16_*_false); the inner decoding half is proved (C16_inner_partial)."
 },
 "C21": {
  "status": "proved",
  "note": ""
 },
 "C22": {
  "status": "partial",
  "note": "Full statement false (reloaded public keys are shifted); id, private key, timestamp, signature survive."
 },
 "C24": {
  "status": "proved",
  "note": "Version 3 (the version Encrypt uses); C24_version2_false for version 2."
 },
 "C25": {
  "status": "partial",
  "note": "Holds with a prekey id; false without (C25_absent_id_false)."
 },
 "C26": {
  "status": "proved",
  "note": ""
 },
 "C27": {
  "status": "partial",
  "note": "Full statement false (C27_false); exact panic conditions proved."
 },
 "C28": {
  "status": "partial",
  "note": "Round trip and length proved; panics exactly characterised, incl. nil-IV panic (C28_nil_iv_panic_false)."
 },
 "C34": {
  "status": "proved",
  "note": ""
 },
 "C35": {
  "status": "proved",
  "note": ""
 },
 "C36": {
  "status": "proved",
  "note": ""
 },
 "C37": {
  "status": "partial",
  "note": "Full statement false (count-start+1 records); exact characterisation proved."
 },
 "C38": {
  "status": "partial",
  "note": "Authentication and round trip proved for the byte functions and for the base64/JSON envelope (text functions); malformed input may panic (C38_malformed_false, C38_text_malformed_false), exact condition proved."
 },
 "C42": {
  "status": "proved",
  "note": ""
 },
 "C48": {
  "status": "proved",
  "note": "C48_split_short_false: Split panics on short input, SplitThree returns an error."
 },
 "C49": {
  "status": "proved",
  "note": "State level; hypotheses hold in every reachable state (WFChains invariant)."
 },
 "C50": {
  "status": "partial",
  "note": "Proved for ordinary messages; C50_preKey_false shows the prekey-message identity field is not authenticated on a known session."
 },
 "C06": {
  "status": "proved",
  "note": "Invariant over all public mutators, serialisation and reload."
 },
 "C08": {
  "status": "proved",
  "note": "Store level: any number of consecutive Encrypt calls."
 },
 "C18": {
  "status": "partial",
  "note": "False of the code: C18_duplicate_false (oldest archived state duplicated), C18_replay_false (one message decrypted twice). Proved when the archive is full: C18_full_archive_partial."
 },
 "C19": {
  "status": "partial",
  "note": "False of the code: C19_forged_consumes_false, C19_archived_corrupts_false. Failures before key derivation leave the state alone: C19_early_failures_partial. C19_failure_effect_exact: what any attempt leaves in memory depends only on the version, ratchet key and counter the message names, so a failure costs exactly what the genuine message with that header would have changed."
 },
 "C20": {
  "status": "partial",
  "note": "False when nothing was sent on the previous chain (C20_underflow_false: 2^32-1). Otherwise proved."
 },
 "C39": {
  "status": "proved",
  "note": "All histories of crashes and restarts."
 },
 "C51": {
  "status": "proved",
  "note": ""
 },
 "C52": {
  "status": "partial",
  "note": "Proved for serialising stores; C52_live_false for stores that hand out the live object."
 },
 "C53": {
  "status": "proved",
  "note": ""
 },
 "C17": {
  "status": "proved",
  "note": "All histories of encrypts and decrypts, until a panic; success with any state of the record ends the wrapping."
 },
 "C40": {
  "status": "proved",
  "note": "Messages of version 3, counter below 2^32-1, a trust policy that keeps accepting the saved identity, working randomness. When the crash falls between storing the session and removing the prekey, the prekey is never removed."
 },
 "C41": {
  "status": "partial",
  "note": "False of the code (C41_concurrent_false: for every session two interleaved calls share counter and keys). Proved for applications that hold a lock per call, all schedules. C80 generalises this to all calls of the session API."
 },
 "C23": {
  "status": "partial",
  "note": "Full statement false for receive-only states (C23_receive_only_false: a missing private key becomes 32 zero bytes); owned records come back identical and everything else survives for all records."
 },
 "C29": {
  "status": "proved",
  "note": "End to end over the wire formats and a serialising store; every delivery order, repetition and omission, interleaved with bytes not signed by the sender; iterations below 2^32; receiver without a state of that key id (see C33)."
 },
 "C30": {
  "status": "proved",
  "note": "All histories of Encrypt/Decrypt/Process/Create over all names from an empty store; no-replay up to the 32-bit wrap-around and as long as the state is not pushed out of a full record; bounds unconditionally. C94_overflow_false shows that the record bound is needed: 2000 further Process calls make a replay succeed."
 },
 "C31": {
  "status": "proved",
  "note": ""
 },
 "C32": {
  "status": "proved",
  "note": ""
 },
 "C33": {
  "status": "partial",
  "note": "Holds for a new key id; false for an id already present (C33_same_id_false: the old state shadows the new one)."
 },
 "C03": {
  "status": "proved",
  "note": "Refinement: for every event list, the two stores+serialised wire behave as Spec/Talk.lean says (each acceptable message decrypts to its text, others are refused). Assumes DH and AES laws, distinct generated keys, fewer than 2^32 events; bundle with a one-time prekey (without one the flow is broken, C16). Turns older than the five newest are outside the claim."
 },
 "C46": {
  "status": "partial",
  "note": "False of the code: `append` in pad writes the padding into the caller's spare capacity (C46_spare_capacity_false, for every such slice). Proved: everything else is untouched, exact extent of the write (slices and memory modelled in Model/Buffers.lean)."
 },
 "C47": {
  "status": "partial",
  "note": "Proved for session messages (a copy is decrypted). False for group messages: DecryptCbc works in place and the object then holds the plaintext (C47_group_message_exact, C47_group_false)."
 },
 "C43": {
  "status": "proved",
  "note": "Every field operation (FeAdd, FeSub, FeNeg, FeMul, FeSquare, FeSquare2, FeFromBytes, FeToBytes, FeInvert, fePow22523, FeIsNegative, FeIsNonZero, FeCMove) is generated from the Go text by tools/go2lean.py as a limb program with 32/64-bit wrap-around; correctness and absence of overflow for all limbs within 1.65*2^26 (wider than documented). The overflow theorem for FeToBytes stops before the packing of limbs into bytes (intended truncation)."
 },
 "C44": {
  "status": "proved",
  "note": "ScReduce and ScMulAdd, generated from the Go text; all 64- and 32-byte inputs. Overflow freedom up to the final packing into bytes (intended truncation)."
 },
 "C54": {
  "status": "proved",
  "note": "Everything is a function of HMAC-SHA256, left arbitrary (its outputs are 32 bytes)."
 },
 "C55": {
  "status": "proved",
  "note": "Initiator, responder, and preservation by later encryptions and decryptions in serialising stores."
 },
 "C56": {
  "status": "proved",
  "note": "Serialising stores; the in-memory live store hands out the record itself, where a failed decryption does change it (see C38/C29 notes)."
 },
 "C57": {
  "status": "proved",
  "note": "For well-formed bodies made of wire types 0, 1, 2 and 5 (groups, wire types 3 and 4, are modelled but not part of this statement)."
 },
 "C58": {
  "status": "proved",
  "note": "Both kinds of store; a missing signed prekey is a nil dereference (panic) in the code, counted as not decrypted."
 },
 "C45": {
  "status": "proved",
  "note": "For every GoLib obeying the stated laws of ed25519.Verify and X25519 base multiplication (SHA-512 arbitrary). All of edwards25519.go used by signing (field, scalars, the precomputed table of const.go, GeScalarMultBase, ToBytes) is modelled at limb level and proved against the curve's group. C45_unclamped_false: keys not clamped are outside the claim."
 },
 "C59": {
  "status": "proved",
  "note": "The limb-level FromBytes, both ToBytes and ToCached are modelled and proved against the affine curve over GF(2^255-19); C59_noncanonical_accepted records that FromBytes accepts encodings ToBytes never produces."
 },
 "C60": {
  "status": "proved",
  "note": "encoding/json and base64 are modelled (Model/Json); prekey public halves come back shifted (C22). C60_null_crashes: stored 'null' or '{}' panics."
 },
 "C61": {
  "status": "proved",
  "note": "Truncation only; other damage can be accepted (no checksum)."
 },
 "C62": {
  "status": "proved",
  "note": "Short keys are zero-padded and accepted (C62_short_key_accepted)."
 },
 "C63": {
  "status": "proved",
  "note": "Archived states may differ in the public half of a signed prekey that is never used to send (C22)."
 },
 "C64": {
  "status": "partial",
  "note": "Proved (symbolic attacker, free keyed hash) for every session state (C64_forward_secrecy), for stored sessions without archived states (C64_stored) and with archived states while the current state decrypts (C64_stored_archive). False when an archived state is promoted: it leaves a stale duplicate whose chain key yields the keys of messages already decrypted (C64_archived_false)."
 },
 "C65": {
  "status": "proved",
  "note": "Symbolic attacker (free keyed hash); the DH output of the new ratchet step is the assumed secret."
 },
 "C66": {
  "status": "proved",
  "note": "Symbolic attacker; both roles. The no-one-time-prekey flow is covered as far as the code reaches it."
 },
 "C67": {
  "status": "proved",
  "note": "Symbolic attacker. C67_repeated_distribution_false: processing the same distribution message again stores the old chain key once more, so the independence of distributed chain keys is needed."
 },
 "C68": {
  "status": "partial",
  "note": "C68_hostile_network: any schedule with injected bytes, either serializer; refusal = no StoreSession call (C68_refused). Injected prekey packets to Bob need that Bob accepts only Alice's key for her address; on first use the claim is false (C68_first_use_false): a refused forgery made of public data pins the forger's identity and locks Alice out."
 },
 "C69": {
  "status": "partial",
  "note": "Proved for first contact (C69_first_contact). False once a session exists (C69_rewrapped_false, general; C69_rewrapped_concrete_false): a genuine message rewrapped in another prekey part is accepted through the old session, yet the one-time prekey the wrapper names is removed and the worthless session kept."
 },
 "C70": {
  "status": "partial",
  "note": "Key pairs, prekeys, sessions and group signing keys: proved. False for group chain keys (C70_group_chain_false: Create succeeds with an all-zero chain key, all messages readable by anyone) and ids (C70_ids: 0)."
 },
 "C71": {
  "status": "proved",
  "note": "For schedules without rejected deliveries (the claim is about delivered messages within the limits); either serializer."
 },
 "C72": {
  "status": "partial",
  "note": "C72_first_messages_partial: both first messages always decrypt. C72_recovers_partial: if then one user answers (on the session the other set up) before the other speaks again, that session prevails and every later conversation goes as C03 specifies (assuming the other session does not accept the answer by accident). The rest is false (C72_crossing_false): when both keep talking at the same time, each message corrupts the session the other one uses, and after two rounds neither can read the other."
 },
 "C73": {
  "status": "proved",
  "note": "JSON record serializer (the only one for records); either message serializer."
 },
 "C74": {
  "status": "partial",
  "note": "Proved up to the first call that panics or the first message that is validly signed by the sender and yet does not decrypt; after that the claim is false (C74_live_false: the in-memory record has already consumed the key)."
 },
 "C75": {
  "status": "proved",
  "note": "Serialising stores; fewer than 2^32 calls. The receiver part uses the hypotheses of C29."
 },
 "C76": {
  "status": "partial",
  "note": "False of the code (C76_concurrent_false, for every sender key record). Proved for applications that hold a lock per call, all schedules. C82 generalises this to all group calls."
 },
 "C77": {
  "status": "partial",
  "note": "Proved for every schedule the specification of C03 covers in which no turn opens with a message more than 5000 others of its turn precede; repeating a message of a turn no longer remembered breaks a session in the in-memory store (C77_replay_false). Also (C77_any_application_partial): any application, with any number of peers, whose calls all succeed with at most one session kept per peer gets the same answers from both kinds of store, with no assumption on the cryptography."
 },
 "C78": {
  "status": "proved",
  "note": "Serialising stores; AES and signature laws; fewer than 2^32 messages per sender and group, at most 2000 distribution messages processed per sender and group; random source available. Receiving before processing a distribution message (nil record, panic: C30/C31 findings) and receiving one's own messages are outside the claim."
 },
 "C79": {
  "status": "proved",
  "note": "C79_other_conversations; the condition on Bob's prekeys is needed (C79_shared_prekey_needed). Each user's random source is assumed to work and not to repeat."
 },
 "C80": {
  "status": "proved",
  "note": "C80_lock_per_peer, C80_one_lock (instances of C80_locks). The condition on one-time prekeys is needed (C80_shared_prekey_needed: two goroutines spend the same prekey). Serialising stores whose single operations are atomic; every goroutine has its own random source."
 },
 "C81": {
  "status": "proved",
  "note": "C81_crashes, for serialising stores whose single operations are atomic. Random numbers drawn by a call that was cut off are not drawn again."
 },
 "C82": {
  "status": "proved",
  "note": "C82_locks. Serialising store whose single operations are atomic. Without locks false: C76_concurrent_false."
 },
 "C83": {
  "status": "partial",
  "note": "The claim (an error, never a crash) is false: C83_crash_false gives bytes of each kind of record on which loading panics. Proved: exactly which bytes crash for session states and sender key states (iff), that records crash only through such a state and then never load, and that prekey records never crash."
 },
 "C84": {
  "status": "partial",
  "note": "Proved as a refinement over every history in which chains are added once, other calls name a present chain and only present keys are removed (what the session cipher does). Missing because false of the code: calls naming an absent chain crash instead of returning nil/false (C84_absent_chain_false), RemoveMessageKeys of an absent number removes and returns the oldest other key (C84_remove_other_false), SetSenderBaseKey of invalid bytes erases the key without an error (C84_base_key_erased_false) and of no bytes crashes (C84_base_key_empty_false)."
 },
 "C85": {
  "status": "proved",
  "note": "Symbolic attacker of Spec/Symbolic.lean who has also seen every tag made by the two sessions (HMAC as a free symbol, so its truncation to eight bytes is not an attack; ciphertexts count as public bytes). Identities must differ (reflection needs it). C85_accepted_was_sent: both histories are runs of the symbolic ratchet, and for all such runs the accepted messages with computable tags are messages the peer sent, with equal plaintext."
 },
 "C86": {
  "status": "proved",
  "note": "Spec/JsonText.lean: RFC 8259 as a relation between documents and texts, and when one document says what another says (order, case of names, further members). Numbers must keep their digits (1e0 for 1 is refused by Go and by the model). Version numbers must be Go ints."
 },
 "C87": {
  "status": "proved",
  "note": "The scanner of Model/Json accepts exactly the texts of Spec/JsonText (scan_iff), so bytes that are not JSON are refused by all ten loaders; C87_same_document: only the document counts. The nesting limit of encoding/json (10000) is not modelled. null and objects can still crash the loaders (C83)."
 },
 "C88": {
  "status": "partial",
  "note": "Sequential histories proved exactly against a specification read off the history; any schedule proved when a logger is installed first. Missing because false of the code: an empty piece of the settings names every caller, so Configure(\"\") prints everything (C88_silence_false); without a lock ensureLogger can overwrite an installed logger (C88_setup_lost_false); Setup(nil) can crash a concurrent log call (C88_nil_setup_crash_false)."
 },
 "C89": {
  "status": "partial",
  "note": "Proved for the default logger: only eight fixed texts and errors are printed, rejected messages are, accepted ones are not. Missing because false of the code for a logger installed with Setup: every cipher key (C89_cipher_key_false), the correct MAC of a rejected forgery (C89_mac_false), serialized session states (C89_state_false) and group invitations (C89_distribution_false) are logged."
 },
 "C90": {
  "status": "partial",
  "note": "Exactly one answer, equal to the synchronous result, proved for every execution in which nobody writes the message's buffer between the call and its goroutine. Missing because false of the code: the goroutine reads the caller's slice later (C90_buffer_reused_false)."
 },
 "C91": {
  "status": "partial",
  "note": "Proved for every history over a serialising store: ProcessBundle never crashes, Encrypt to a peer with a session succeeds, Decrypt/DecryptMessage of parsed bytes crash only in the listed cases; the same over a store that hands out the live object when the random source does not fail (C91_live_no_crash_partial). Missing because false of the code: Encrypt without a session (C91_no_session_false), unknown signed prekey (C91_unknown_signed_prekey_false), ciphertext of a ragged length under a valid MAC (C91_jagged_false), and, with a store handing out the live object, Encrypt after a failed ProcessBundle (C91_failed_process_bundle_false)."
 },
 "C92": {
  "status": "proved",
  "note": "For the JSON serializer; the protobuf serializer has no null."
 },
 "C93": {
  "status": "partial",
  "note": "The code violates the claim in three ways (C93_*_false): no record under the name (nil pointer), a signed message whose ciphertext is no whole number of blocks, and, with a store that hands out its objects, encrypting under a name for which a distribution message was processed (nil private key). Outside these cases no call crashes, after any history."
 },
 "C94": {
  "status": "partial",
  "note": "Hypotheses: the receiver had no state with that key id under the name (C33_same_id_false shows why), no record reaches 2000 states and no iteration wraps (SafeRun), and no delivered message with that key id carries a signature that verifies but is over content the sender did not sign (Unforged). C94_overflow_false: without the record bound the claim is false - decrypting a message, processing the same distribution message 2000 more times and decrypting the message again succeeds (and 1999 times does not suffice). C94_wrap_false: at the 32-bit wrap-around the claim is false too - the message numbered 0 is taken for the one after 2^32-1 and decrypted with that one's key."
 },
 "C95": {
  "status": "proved",
  "note": "For serialising stores; every call makes at most one StoreSenderKey, so a crash leaves the store before or after it. 'No message key used twice' is C75; here it shows as: messages sent after a crash are accepted by everyone who was invited."
 },
 "C96": {
  "status": "partial",
  "note": "History-level strengthening of C11, C50 and C55: invariant over all lives (calls, store operations, crashes) of a user with a serialising store. That the trust answer is not asked again later is C12. Partial: proved for serialising stores; for a store that hands out the live object the claim is false, proved in C96_live_false (ProcessBundle overwrites a fresh record state but keeps the old receiving chains, so the owner of the old identity can still send messages that are accepted as authenticated with the new one)."
 },
 "C97": {
  "status": "proved",
  "note": "C85 and C66 lifted from one pair of sessions to whole lives of any number of users, by way of C96. Symbolic attacker of Spec/Symbolic.lean (free keyed hash; tags of all users given to him). That messages are not accepted twice is not claimed (C18_replay_false). Serialising stores; for stores handing out the live object see C96_live_false."
 },
 "C98": {
  "status": "partial",
  "note": "Proved for every life in which no message is decrypted with an archived session. Otherwise the claim is false of the code, proved in C98_replay_reuse_false: after a message of an archived session made that session current, the record keeps a stale copy of it (C18); a replayed message is accepted by the copy, which becomes current with its old sending chain, and Encrypt then encrypts a different plaintext with the same message key, IV and counter."
 },
 "C99": {
  "status": "partial",
  "note": "C32 and C75 lifted to whole lives with any calls in between. Proved while fewer than 2000 distribution messages are processed under the name; with 2000 the claim is false of the code, for every cryptography and any two texts, proved in C99_overflow_false: the record drops its first state, the one in use, and an older copy of it takes its place."
 },
 "C100": {
  "status": "proved",
  "note": "C03, C68, C79 and C81 in one schedule. Conditions as there: made-up packets that make the library store a session are excluded (observable: their store operations), first contact is pinned if forged prekey packets reach Bob (C68_first_use_false shows this is needed), Bob keeps the two prekeys of the bundle (C79_shared_prekey_needed), serialising stores."
 },
 "C101": {
  "status": "partial",
  "note": "Proved for lives in which, between the two uses, the session is not deleted or replaced and no message is decrypted with an archived session. The unconditional claim is false (C101_replay_false: the same message is accepted by two consecutive calls after an archived session was promoted). Keys are compared as terms over the session's secrets; C101_accepted_once_partial reduces a second acceptance to an explicit 8-byte tag coincidence under two different keys."
 },
 "C102": {
  "status": "proved",
  "note": "For the records returned by the generating calls. A bundle made of records that were saved and read back is a different matter (C22): C102_reloaded_bundle_false shows the signed prekey being refused and the one-time prekey leading to a session its owner rejects."
 },
 "C103": {
  "status": "proved",
  "note": "SHA-512 is a parameter: the theorems give two different inputs whose digests agree modulo the group order. Scope: generated keys. C103_weak_key_false: the all-zero public key is accepted and half of all messages verify with a signature anyone can make. C103_key_alias_false: flipping the top bit of a public key gives another key that accepts the same signatures."
 },
 "C104": {
  "status": "partial",
  "note": "True for a builder made for the cipher's address (C104_matching_partial); the effect for any other builder is given exactly (C104_mixed_effect), with what holds for all ciphers (C104_isolation_partial). The claim is false of the code: NewCipherFromSession leaves the builder nil and DecryptMessage panics (C104_from_session_false); a builder for another address has the trust decision made and the identity saved for that address (C104_other_builder_false); NewGroupCipher with a nil builder panics on Encrypt (C104_group_no_builder_false)."
 },
 "C105": {
  "status": "proved",
  "note": "Joint refinement of C03 and C78: the processing of a distribution message is triggered by the decryption of the session message that carries it."
 },
 "C106": {
  "status": "proved",
  "note": "Observer model (Spec/Steps): statements, array indices, outcomes of conditions, lengths given to library functions. Integer operations are taken to need a time independent of their operands, SHA-512, HMAC and copy one that depends on lengths only. C106_sign_value and C106_mac_value tie the instrumented functions to the ones all other theorems are about."
 },
 "C107": {
  "status": "proved",
  "note": "Receiving and sending are modelled again with a step for each call of a primitive (Model/Work); C107_decrypt_value, C107_prekey_value, C107_group_value and C107_encrypt_value prove that they return what the model of the other claims returns, C107_decrypt_work, C107_prekey_work, C107_group_work and C107_encrypt_work bound the steps, C107_forgery_work proves how much a forged message costs. A call is one step whatever the length of its input; parsing, comparing and storing are not counted."
 },
 "C108": {
  "status": "proved",
  "note": "Proved for generated public keys. For public keys of small order, which a peer may send, C108_small_order_false, C108_no_contribution_false and C108_public_session_false prove that the secret is all zero whatever our key is (the library does not look at the result), and that what is then sent in such a session can be decrypted by everybody."
 },
 "C109": {
  "status": "partial",
  "note": "False in general: only the first 30 bytes are shown, in groups modulo 100000; a serialised identity key used as fingerprint hides its last three bytes; Scan is always empty. Proved: exact condition for equal texts, and the comparison for every generator (the application's: the library has only its interface) that shows different users as different numbers."
 }
}