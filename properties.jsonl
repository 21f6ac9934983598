{"id": "C01", "title": "X3DH: both sides derive the same session keys", "statement": "If the initiator calculates a sender session from its identity key pair, its base key pair and the peer's identity key, signed prekey and (optional) one-time prekey, and the responder calculates a receiver session from the mirrored parameters, both calculations succeed and return the same root key and the same chain key.", "quantifier": "all key pairs, with and without a one-time prekey, for every Diffie-Hellman function that commutes on public keys", "why_tests_cant": "Tests use a handful of random keys; agreement must hold for every key pair and both prekey shapes.", "anchors": ["ratchet/ratchet.go:CalculateSenderSession", "ratchet/ratchet.go:CalculateReceiverSession", "ratchet/sender.go", "ratchet/receiver.go"]}
{"id": "C02", "title": "Symmetric session agreement", "statement": "Two parties that run the symmetric session calculation with mirrored parameters obtain the same root key and chain key, whichever of them the key comparison elects as sender.", "quantifier": "all key pairs of the two parties", "why_tests_cant": "Tests use a handful of random keys; the violating key pairs (equal leading bytes of the base keys) have probability about 2^-24 per run.", "anchors": ["ratchet/ratchet.go:CalculateSymmetricSession", "ratchet/ratchet.go:isSender", "ratchet/symmetric.go"]}
{"id": "C03", "title": "Two-party conversation: every in-window message decrypts to what was sent", "statement": "After a session has been established, for every interleaving of Encrypt calls by both parties and deliveries in any order within the receive window, each delivered message decrypts to exactly the plaintext passed to the Encrypt call that produced it.", "quantifier": "all finite schedules of encrypts and deliveries by two parties, all plaintexts, all key draws", "why_tests_cant": "The set of schedules is infinite; tests run one or two fixed orders.", "anchors": ["session/cipher.go:Encrypt", "session/cipher.go:Decrypt", "session/cipher.go:getOrCreateChainKey", "session/cipher.go:getOrCreateMessageKeys"]}
{"id": "C04", "title": "Receive window behaves like its specification", "statement": "On one receiving chain, a message with counter c is accepted for key derivation exactly when c is the next counter or at most 5000 beyond it, or was skipped earlier, has not been used since, and is still among the 2000 most recently skipped; the key used is always the key the chain assigns to c.", "quantifier": "all sequences of counters on one chain carrying fewer than 2^32 messages, all chain keys", "why_tests_cant": "Needs every history of in-order, skipped, late and repeated counters, including those that overflow the 2000-key store.", "anchors": ["session/cipher.go:getOrCreateMessageKeys", "state/record/state_session.go:SetMessageKeys", "state/record/state_session.go:RemoveMessageKeys", "state/record/state_session.go:HasMessageKeys"]}
{"id": "C05", "title": "No replay within a session state", "statement": "Once a message has been decrypted with a session state, decrypting any message with the same sender ratchet key and the same counter with that state fails as a duplicate, whatever was decrypted in between on that chain.", "quantifier": "all histories of decryptions on the state (fewer than 2^32 messages on a chain)", "why_tests_cant": "Replay can come after any later history; tests replay once immediately.", "anchors": ["session/cipher.go:DecryptWithState", "session/cipher.go:getOrCreateMessageKeys"]}
{"id": "C06", "title": "Stored session memory is bounded", "statement": "In every session record reachable from a new one through the public mutators, each session state keeps at most 5 receiver chains, each receiver chain at most 2000 skipped message keys, and archiving leaves at most 40 previous states.", "quantifier": "all sequences of record and state mutations, including serialisation and reload", "why_tests_cant": "An adversarial peer chooses the history; a bound is a statement about all of them.", "anchors": ["state/record/state_session.go:AddReceiverChain", "state/record/state_session.go:SetMessageKeys", "state/record/session.go:PromoteState", "state/record/session.go:ArchiveCurrentState"]}
{"id": "C07", "title": "Future-message limit has an exact boundary", "statement": "A message exactly 5000 counters ahead of the receiving chain is accepted for key derivation, one 5001 or more ahead is rejected, and a rejected one leaves the session state unchanged.", "quantifier": "all chain positions and counters", "why_tests_cant": "Boundary must hold at every chain index including near 2^32.", "anchors": ["session/cipher.go:getOrCreateMessageKeys", "session/cipher.go:maxFutureMessages"]}
{"id": "C08", "title": "Encrypt never reuses a counter or message key position", "statement": "Successive Encrypt calls on one session with no intervening decrypt produce messages with consecutive counters under one sender ratchet key, each encrypted with the message keys at that position of the chain, and the stored sender chain advances by exactly one per successful call.", "quantifier": "all session states with a sender chain, all numbers of consecutive calls and plaintexts", "why_tests_cant": "Counter uniqueness is over unbounded call sequences.", "anchors": ["session/cipher.go:Encrypt", "keys/chain/key.go:NextKey"]}
{"id": "C09", "title": "A failed decrypt leaves the persisted session unchanged", "statement": "If decrypting an incoming message returns an error, the session stored for the sender is the same as before the call.", "quantifier": "all stored records and all incoming messages, both for stores that serialise and for stores that hand out the live object", "why_tests_cant": "Every malformed or forged message must be considered.", "anchors": ["session/cipher.go:DecryptAndGetKey", "session/cipher.go:DecryptWithRecord", "session/cipher.go:DecryptWithState"]}
{"id": "C10", "title": "Message authenticity: the MAC covers every field and both identities", "statement": "A received message is decrypted only if its MAC equals the MAC computed over the two identity keys (receiver's view: remote then local), its version, sender ratchet key, counter, previous counter and ciphertext; two messages that differ in any of these fields present different inputs to the MAC.", "quantifier": "all messages, all identity keys, all MAC keys", "why_tests_cant": "Needs injectivity of the authenticated encoding over all field values.", "anchors": ["protocol/signal_message.go:VerifyMac", "protocol/signal_message.go:getMac", "session/cipher.go:DecryptWithState"]}
{"id": "C11", "title": "Session setup refuses an untrusted identity without side effects", "statement": "Processing a prekey bundle or an incoming prekey message whose identity key the identity store does not trust returns an error, and stores no session, saves no identity and removes no prekey.", "quantifier": "all stores, trust policies, bundles and prekey messages", "why_tests_cant": "The absence of an effect must be shown on every path.", "anchors": ["session/session.go:Process", "session/session.go:ProcessBundle"]}
{"id": "C12", "title": "Encrypt and Decrypt enforce identity trust", "statement": "Encrypting to, or decrypting from, a peer whose session identity the identity store no longer trusts is refused and does not overwrite the stored identity.", "quantifier": "all stores and trust policies", "why_tests_cant": "A universally quantified refusal; the tests never change an identity mid-session.", "anchors": ["session/cipher.go:Encrypt", "session/cipher.go:DecryptAndGetKey"]}
{"id": "C13", "title": "A bundle without a valid signed-prekey signature creates no session", "statement": "Processing a bundle whose signed prekey is missing, or whose signature does not verify under the bundle's identity key over the serialised signed prekey, returns an error and has no effect on any store.", "quantifier": "all bundles, keys and signatures", "why_tests_cant": "All invalid signatures must be rejected.", "anchors": ["session/session.go:ProcessBundle"]}
{"id": "C14", "title": "A one-time prekey is removed exactly when its message was decrypted", "statement": "A call decrypting a prekey message removes a one-time prekey only after that message authenticated and decrypted and the session was stored, removes only the prekey named in the message, and never one for a message that failed.", "quantifier": "all prekey messages, stores and failure points", "why_tests_cant": "Quantifies over all failing inputs and all points of failure.", "anchors": ["session/cipher.go:DecryptMessageReturnKey", "session/session.go:processV3"]}
{"id": "C15", "title": "A repeated prekey message does not create a second session", "statement": "If the stored session already contains, as current or archived, a state established by the same base key and version, processing another prekey message with that base key neither changes the session record nor consumes a prekey.", "quantifier": "all records, all prekey messages", "why_tests_cant": "The matching state can be at any archive position.", "anchors": ["session/session.go:processV3", "state/record/session.go:HasSessionState"]}
{"id": "C16", "title": "Sessions without a one-time prekey work", "statement": "A prekey message sent without a one-time prekey identifier can be decrypted by its recipient: it decrypts, the session is stored and the call returns without panicking.", "quantifier": "all sessions built from a bundle with no one-time prekey", "why_tests_cant": "Depends on how absence is represented through every serializer; the tests always include a one-time prekey.", "anchors": ["session/cipher.go:DecryptMessageReturnKey", "session/session.go:processV3", "serialize/proto.go:ProtoBufPreKeySignalMessageSerializer"]}
{"id": "C17", "title": "Prekey wrapping lasts until the first successful decrypt", "statement": "After a bundle has been processed every Encrypt result is a prekey message carrying the same base key and prekey identifiers until a message from the peer is successfully decrypted with that session state, and an ordinary message afterwards.", "quantifier": "all sequences of encrypts and (failing or succeeding) decrypts", "why_tests_cant": "Over unbounded histories.", "anchors": ["session/cipher.go:Encrypt", "session/cipher.go:DecryptWithState", "state/record/state_session.go:ClearUnackPreKeyMessage"]}
{"id": "C18", "title": "Decrypting with an archived state promotes it exactly once", "statement": "When a message decrypts under an archived state, that state becomes the current one, the former current state becomes the newest archived one and the remaining archived states keep their order without loss or duplication.", "quantifier": "all records and positions of the matching state", "why_tests_cant": "All archive lengths and positions.", "anchors": ["session/cipher.go:DecryptWithRecord", "state/record/session.go:PromoteState", "state/record/session.go:removeLastState"]}
{"id": "C19", "title": "A failed attempt with one state does not alter it", "statement": "While searching for the session state that decrypts a message, states for which decryption fails are left as they were.", "quantifier": "all records and messages", "why_tests_cant": "Must hold for every failing state of every record.", "anchors": ["session/cipher.go:DecryptWithRecord", "session/cipher.go:DecryptWithState"]}
{"id": "C20", "title": "Previous counter reports the length of the previous sending chain", "statement": "After a ratchet step caused by decrypting a reply, messages carry as previous counter the index of the last message sent on the previous sending chain, and 0 if none was sent.", "quantifier": "all session states at the time of the ratchet step", "why_tests_cant": "Includes the boundary at an empty sending chain.", "anchors": ["session/cipher.go:getOrCreateChainKey"]}
{"id": "C21", "title": "Session record serialisation round-trips", "statement": "Serialising a session record into its structure and rebuilding it yields a record that behaves identically: same current state, same archived states in order, same keys, counters, chains and pending data.", "quantifier": "all initialised session records", "why_tests_cant": "All shapes of nested optional data and list lengths.", "anchors": ["state/record/session.go:structure", "state/record/session.go:NewSessionFromStructure", "state/record/state_session.go:structure", "state/record/state_session.go:NewStateFromStructure"]}
{"id": "C22", "title": "Prekey and signed prekey records round-trip", "statement": "Reloading a serialised prekey or signed prekey record gives the same identifier, key pair, timestamp and signature.", "quantifier": "all records", "why_tests_cant": "All key values; a 33-byte vs 32-byte confusion is invisible to a test that only checks the private key.", "anchors": ["state/record/prekey.go", "state/record/signed_prekey.go"]}
{"id": "C23", "title": "Sender key record serialisation round-trips", "statement": "Reloading a serialised sender key record gives the same states in order with the same chain, skipped keys and signing keys, whether or not the record owns the private signing key.", "quantifier": "all sender key records", "why_tests_cant": "All combinations of owned / received states.", "anchors": ["groups/state/record/sender_key.go", "groups/state/record/state_sender_key.go"]}
{"id": "C24", "title": "Signal messages survive the wire", "statement": "A message built by Encrypt, serialised and parsed again has the same ratchet key, counter, previous counter, ciphertext and version, and its MAC verifies under the same MAC key and identities.", "quantifier": "all keys, counters, ciphertexts and identities", "why_tests_cant": "All field values including empty ciphertext, zero counters and 2^32-1.", "anchors": ["protocol/signal_message.go", "serialize/proto.go:ProtoBufSignalMessageSerializer"]}
{"id": "C25", "title": "Prekey signal messages survive the wire", "statement": "A prekey message serialised and parsed again has the same registration id, prekey id, signed prekey id, base key, identity key and inner message.", "quantifier": "all field values with and without a prekey id", "why_tests_cant": "All field values.", "anchors": ["protocol/prekey_signal_message.go", "serialize/proto.go:ProtoBufPreKeySignalMessageSerializer"]}
{"id": "C26", "title": "Sender key and distribution messages survive the wire", "statement": "A sender key message or sender key distribution message serialised and parsed again has the same fields and its signature verifies under the same key.", "quantifier": "all ids, iterations, keys, ciphertexts and signatures", "why_tests_cant": "All field values.", "anchors": ["protocol/sender_key_message.go", "protocol/sender_key_distribution_message.go", "serialize/proto.go"]}
{"id": "C27", "title": "Parsing hostile bytes returns an error rather than crashing", "statement": "Parsing any byte string as any of the four message types either returns a message or an error; it never panics.", "quantifier": "all byte strings", "why_tests_cant": "All byte strings; the crashing ones are specific short or malformed encodings.", "anchors": ["serialize/proto.go", "protocol/signal_message.go", "protocol/prekey_signal_message.go", "ecc/curve.go:DecodePoint", "util/bytehelper/byte.go"]}
{"id": "C28", "title": "Message encryption round-trips and never leaks padding", "statement": "CBC decryption with the same key and IV inverts CBC encryption for every plaintext, the ciphertext length is the next multiple of 16 above the plaintext length, and decryption never panics on any ciphertext of a multiple of 16 bytes.", "quantifier": "all plaintexts, keys, IVs and ciphertexts", "why_tests_cant": "All lengths modulo 16 and all malformed padding bytes.", "anchors": ["cipher/cbc.go", "cipher/cipher.go"]}
{"id": "C29", "title": "Group messages decrypt to what was sent", "statement": "A receiver that processed a sender's distribution message decrypts every later message of that sender delivered in any order within the window of 2000 to the plaintext that was encrypted.", "quantifier": "all plaintext sequences and delivery orders", "why_tests_cant": "All schedules.", "anchors": ["groups/cipher.go", "groups/session_builder.go", "groups/ratchet/sender_chain_key.go", "groups/ratchet/sender_message_key.go"]}
{"id": "C30", "title": "Group: no replay and bounded state", "statement": "A group message key is usable at most once per state, and each sender key state keeps at most 2000 skipped keys, each record at most 2000 states.", "quantifier": "all histories of received iterations", "why_tests_cant": "All histories.", "anchors": ["groups/cipher.go:getSenderKey", "groups/state/record/state_sender_key.go", "groups/state/record/sender_key.go"]}
{"id": "C31", "title": "Group messages are signature-checked before any state change", "statement": "A group message whose signature does not verify under the sender's signing key, or that names an unknown key id, is rejected and the stored sender key record is unchanged.", "quantifier": "all records and messages", "why_tests_cant": "All forged messages.", "anchors": ["groups/cipher.go:Decrypt"]}
{"id": "C32", "title": "Group encryption never reuses an iteration", "statement": "Successive group Encrypt calls produce messages with strictly consecutive iterations under one key id, each encrypted with the key of that iteration and signed by the record's signing key.", "quantifier": "all call sequences", "why_tests_cant": "Unbounded sequences.", "anchors": ["groups/cipher.go:Encrypt"]}
{"id": "C33", "title": "A new distribution message takes effect", "statement": "After processing a distribution message, messages encrypted by its sender with the distributed chain can be decrypted, also when a state with the same key id is already present.", "quantifier": "all sender key records and distribution messages", "why_tests_cant": "Needs the history in which an id is distributed twice.", "anchors": ["groups/session_builder.go:Process", "groups/state/record/sender_key.go:AddSenderKeyState", "groups/state/record/sender_key.go:GetSenderKeyStateByID"]}
{"id": "C34", "title": "Fingerprint display is symmetric and 60 decimal digits", "statement": "Both parties display the same fingerprint text, it always has exactly 60 decimal digits, and never panics for fingerprints produced by the generator.", "quantifier": "all pairs of fingerprints of at least 30 bytes", "why_tests_cant": "All byte values and the ordering of the two halves.", "anchors": ["fingerprint/display.go", "fingerprint/fingerprint.go"]}
{"id": "C35", "title": "Address strings identify addresses", "statement": "Two protocol addresses have the same string form only if they have the same name and device id; likewise identity fingerprints determine the key.", "quantifier": "all names and device ids", "why_tests_cant": "Names may contain the separator.", "anchors": ["protocol/signal_protocol_address.go:String", "keys/identity/key.go:Fingerprint"]}
{"id": "C36", "title": "Generated keys are clamped and the public key matches", "statement": "Every generated or imported private key is a clamped Curve25519 scalar, the returned public key is the base-point multiple of exactly that scalar, and a serialised public key parses back to itself.", "quantifier": "all random draws and all 32-byte inputs", "why_tests_cant": "All 2^256 inputs.", "anchors": ["ecc/curve.go"]}
{"id": "C37", "title": "Bulk prekey generation yields exactly the requested identifiers", "statement": "Generating prekeys from a start id and a count yields count records with consecutive identifiers beginning at the start id.", "quantifier": "all start ids and counts", "why_tests_cant": "Off-by-one and start>count cases.", "anchors": ["util/keyhelper/key.go:GeneratePreKeys"]}
{"id": "C38", "title": "Provisioning messages authenticate before decryption", "statement": "Decrypting a provisioning message returns plaintext only if the MAC over version, IV and ciphertext verifies, inverts the corresponding encryption, and malformed input yields an error.", "quantifier": "all byte strings and keys", "why_tests_cant": "All malformed inputs.", "anchors": ["provision/cipher.go"]}
{"id": "C39", "title": "Crash during Encrypt never causes key reuse", "statement": "If the process stops at any point during Encrypt and restarts from the stored session, no message that was returned to the caller shares its counter and ratchet key with a message produced later.", "quantifier": "all crash points, all histories of crashes and encrypts", "why_tests_cant": "All crash points in all histories.", "anchors": ["session/cipher.go:Encrypt", "state/store/session.go"]}
{"id": "C40", "title": "Crash during decryption of a prekey message is recoverable", "statement": "If the process stops at any point while a first prekey message is being decrypted, decrypting the same message again after restart either yields the same plaintext or fails as an already-processed duplicate of a stored session; the one-time prekey is still available unless the session was stored.", "quantifier": "all crash points", "why_tests_cant": "All prefixes of the store effects.", "anchors": ["session/cipher.go:DecryptMessageReturnKey", "session/session.go:processV3"]}
{"id": "C41", "title": "Concurrent Encrypt calls do not share a message key", "statement": "Encrypt calls on the same session running concurrently never produce two messages with the same counter and keys.", "quantifier": "all interleavings of the calls' store operations", "why_tests_cant": "Race interleavings are not reproducible in tests.", "anchors": ["session/cipher.go:Encrypt", "session/cipher.go:Cipher"]}
{"id": "C42", "title": "Per-address isolation", "statement": "Encrypting to, decrypting from, or building a session with one remote address never changes the session or saved identity of any other address.", "quantifier": "all addresses, stores and inputs", "why_tests_cant": "All pairs of addresses.", "anchors": ["session/cipher.go", "session/session.go"]}
{"id": "C43", "title": "Curve arithmetic: field operations are correct and do not overflow", "statement": "For limbs within the documented bounds the field addition, subtraction, multiplication and squaring used by signature creation and verification compute the right value modulo 2^255-19 without integer overflow, with results again within bounds; byte encoding is canonical.", "quantifier": "all limb vectors within the documented bounds, all 32-byte inputs", "why_tests_cant": "Carry bugs show up with probability far below what random tests hit.", "anchors": ["ecc/edwards25519/edwards25519.go:FeMul", "ecc/edwards25519/edwards25519.go:FeToBytes", "ecc/edwards25519/edwards25519.go:FeFromBytes"]}
{"id": "C44", "title": "Scalar arithmetic modulo the group order is correct", "statement": "The scalar multiply-add and 64-byte reduction used in signing and verification return the canonical 32-byte encoding of the mathematical result modulo the group order.", "quantifier": "all 32-byte and 64-byte inputs", "why_tests_cant": "Carry bugs show up with negligible probability.", "anchors": ["ecc/edwards25519/edwards25519.go:ScMulAdd", "ecc/edwards25519/edwards25519.go:ScReduce"]}
{"id": "C45", "title": "Signatures verify", "statement": "A signature made over any message with a private key created or imported by this library verifies under the corresponding public key and that message; verification accepts exactly the signatures (R, S, sign bit) that satisfy the Ed25519 equation for the Edwards point with that public key's u-coordinate and that sign; and no second S is accepted for the same R and sign bit.", "quantifier": "all clamped private keys, messages and random values; all public keys, messages and 64-byte signatures", "why_tests_cant": "All keys including both signs of the Edwards x coordinate.", "anchors": ["ecc/sign_curve25519.go", "ecc/edwards25519/edwards25519.go: GeScalarMultBase, ToBytes, ScMulAdd, ScReduce", "ecc/edwards25519/const.go", "ecc/curve.go: CalculateSignature, VerifySignature, CreateKeyPair"]}
{"id": "C46", "title": "Encrypt does not modify the caller's plaintext buffer", "statement": "Passing a plaintext slice to Encrypt leaves the caller's underlying buffer unchanged, including bytes beyond the slice's length.", "quantifier": "all buffers, lengths and capacities", "why_tests_cant": "Depends on spare capacity, which test literals do not have.", "anchors": ["cipher/cbc.go:pad", "cipher/cbc.go:Encrypt"]}
{"id": "C47", "title": "Decrypting a group message does not modify the message object", "statement": "A parsed message passed to Decrypt (session or group) still has its original ciphertext and signature afterwards, so decrypting it again or forwarding it behaves as for the original.", "quantifier": "all messages", "why_tests_cant": "Aliasing is invisible unless the object is reused.", "anchors": ["cipher/cbc.go:Decrypt", "groups/cipher.go:Decrypt", "session/cipher.go:DecryptWithKey"]}
{"id": "C48", "title": "Byte helpers split and reassemble exactly", "statement": "Splitting a byte string into two or three parts returns parts of exactly the requested lengths that concatenate to the prefix of the input, and fails for inputs that are too short; array conversion preserves inputs of the right length.", "quantifier": "all byte strings and lengths", "why_tests_cant": "All lengths.", "anchors": ["util/bytehelper/byte.go"]}
{"id": "C49", "title": "Key material of consumed messages is not retained", "statement": "After a message has been decrypted, the stored session state contains neither its message keys nor any chain key from which they can be derived by advancing the chain.", "quantifier": "all histories of decryptions on a state", "why_tests_cant": "All histories.", "anchors": ["session/cipher.go:getOrCreateMessageKeys", "state/record/state_session.go:RemoveMessageKeys"]}
{"id": "C50", "title": "Every decrypted message is attributed to the session's peer", "statement": "The identity saved for the remote address after a successful decrypt is the remote identity recorded in the session state that decrypted the message.", "quantifier": "all records and messages", "why_tests_cant": "All archive positions.", "anchors": ["session/cipher.go:DecryptAndGetKey"]}
{"id": "C51", "title": "Private-key operations are deterministic functions of stored state and randomness", "statement": "The ephemeral key installed by a ratchet step is a freshly generated key pair (one unused random draw each), and if the random source fails the decrypt fails and the stored session is unchanged.", "quantifier": "all states and random sources", "why_tests_cant": "Random source failure is never exercised.", "anchors": ["session/cipher.go:getOrCreateChainKey", "session/session.go:ProcessBundle", "ecc/curve.go:GenerateKeyPair"]}
{"id": "C52", "title": "A new session keeps the old one usable", "statement": "Building a session from a prekey bundle for an address that already has one archives the old current state, unchanged, as the newest archived state, keeps the other archived states in order (at most 40 in all), and makes the new state current, so messages in flight on the old session remain decryptable.", "quantifier": "all stored records and valid bundles, stores that serialise and stores that hand out the live object", "why_tests_cant": "must hold for every stored record, including any number of archived states and any store implementation", "anchors": ["session/session.go: Builder.ProcessBundle", "state/record/session.go: ArchiveCurrentState, PromoteState"]}
{"id": "C53", "title": "A saved message key decrypts the same message again", "statement": "If decrypting a message and asking for its key returns a plaintext and a message key, then decrypting the same message with that key returns the same plaintext.", "quantifier": "all stores, sessions and messages", "why_tests_cant": "ranges over every session state and every message", "anchors": ["session/cipher.go: DecryptAndGetKey, DecryptWithKey"]}
{"id": "C54", "title": "The key schedule is the published one", "statement": "All session and message keys are the ones of the X3DH / Double Ratchet descriptions: DeriveSecrets is RFC 5869 HKDF-SHA256 for every input and length up to 255 blocks (an error beyond), chain keys advance with HMAC 0x02, message keys come from HMAC 0x01 expanded with the documented labels, root steps use the old root key as salt, and the initiator and the responder feed the documented sequence of Diffie-Hellman outputs. So independent implementations interoperate.", "quantifier": "all inputs, salts, labels and lengths, all positions of a chain, all key agreements with or without a one-time prekey, one-to-one and group messages", "why_tests_cant": "a test compares a few vectors; interoperation needs every key at every chain position", "anchors": ["kdf/hkdf.go:DeriveSecrets", "keys/chain/key.go:NextKey,MessageKeys", "keys/root/key.go:CreateChain", "ratchet/ratchet.go:CalculateSenderSession,CalculateReceiverSession", "groups/ratchet/sender_chain_key.go:Next"]}
{"id": "C55", "title": "A session records who it is with, and keeps it", "statement": "After a bundle is processed, or a first prekey message decrypted, the stored session carries the peer's registration id and identity key, our own, and the version, base key and prekey ids of the exchange; no later encryption or decryption changes the registration ids, identities, version or base key of that session.", "quantifier": "all stores, bundles, prekey messages and later messages", "why_tests_cant": "ranges over every history of messages on a session", "anchors": ["session/session.go:ProcessBundle,processV3", "session/cipher.go:Encrypt,DecryptAndGetKey,DecryptMessageReturnKey", "state/record/state_session.go:SetRemoteRegistrationID"]}
{"id": "C56", "title": "A failed group operation stores nothing", "statement": "If encrypting or decrypting a group message, or processing a distribution message, fails for whatever reason, a serialising sender-key store is left exactly as it was.", "quantifier": "all stores, sender names, messages and failure causes", "why_tests_cant": "every failure point and every store content", "anchors": ["groups/cipher.go:Encrypt,Decrypt", "groups/session_builder.go:Process"]}
{"id": "C57", "title": "Parsing follows the protobuf rules for repeated and unknown fields", "statement": "Parsing a message, prekey message, group message or distribution message takes the last occurrence of each field, whatever the order of the fields, ignores fields with unknown numbers or an unexpected wire type, keeps the low 32 bits of numeric fields, uses zero or nothing for missing ones, and takes the version from the high half of the first byte and the trailer (MAC or signature) from the end.", "quantifier": "all lists of fields with any numbers, wire types, order and repetitions, all version bytes and trailers", "why_tests_cant": "the set of encodings of a message is infinite", "anchors": ["serialize/proto.go:Deserialize", "serialize/protocol_whisper_text.pb.go:SignalMessage,PreKeySignalMessage,SenderKeyMessage"]}
{"id": "C58", "title": "A prekey message that names unknown prekeys changes nothing", "statement": "A prekey message with a base key not seen before that names a signed prekey or one-time prekey we do not have is not decrypted, and no session, identity, prekey or random state changes. A signal message from an address with no session is rejected with the no-session error and changes nothing.", "quantifier": "all stores (serialising or live), records and prekey messages", "why_tests_cant": "every store content and every message", "anchors": ["session/session.go:Process,processV3", "session/cipher.go:DecryptMessageReturnKey"]}
{"id": "C59", "title": "Point encodings are decoded to the point they name", "statement": "Decoding 32 bytes as a curve point (FromBytes) succeeds exactly when the curve has a point whose y coordinate is the number the bytes hold without their top bit, and then yields a point with that y and with an x whose parity is the top bit (unless x is 0); encoding any represented point (ToBytes, in extended or projective coordinates) gives its standard encoding, so decoding then encoding the encoding of any curve point gives the same bytes back. FromBytes does not insist on the canonical encoding.", "quantifier": "every 32-byte string; every point of the curve and every coordinate representation of it with legal limbs", "why_tests_cant": "2^256 inputs, half of them not points; the square root branch and the sign selection depend on number-theoretic facts about the whole field", "anchors": ["ecc/edwards25519/edwards25519.go ExtendedGroupElement.FromBytes", "ecc/edwards25519/edwards25519.go ExtendedGroupElement.ToBytes", "ecc/edwards25519/edwards25519.go ProjectiveGroupElement.ToBytes", "ecc/edwards25519/edwards25519.go ExtendedGroupElement.ToCached"]}
{"id": "C60", "title": "Records survive the JSON bytes they are stored as", "statement": "Serialize on a session record, session state, sender key record, prekey or signed prekey returns bytes from which the corresponding New...FromBytes rebuilds the same states (current and archived, in order), skipped keys, ids, private keys, timestamp and signature; two session records with the same bytes have the same states. Serialising a session record with an uninitialised state panics.", "quantifier": "every record built from the public API, with any number of states, chains, skipped keys and any key bytes", "why_tests_cant": "infinitely many records, every byte string in every field has to survive base64 and JSON escaping", "anchors": ["serialize/json.go", "state/record/state_session.go:Serialize", "groups/state/record/sender_key.go:Serialize", "state/record/prekey.go:Serialize", "state/record/signed_prekey.go:Serialize"]}
{"id": "C61", "title": "A torn write of a stored record is detected", "statement": "Every proper prefix of the bytes Serialize returns for a session record, state, sender key record, prekey or signed prekey, and of every message in the JSON format, is refused with an error (never accepted as another record, never a panic).", "quantifier": "every record and every cut point", "why_tests_cant": "every record of any size and every crash point while writing it", "anchors": ["serialize/json.go", "state/record/session.go:NewSessionFromBytes", "groups/state/record/sender_key.go:NewSenderKeyFromBytes"]}
{"id": "C62", "title": "Exactly the well-formed messages are accepted", "statement": "Each of the four message parsers accepts parsed fields exactly when the version is 2 or 3, every required field is present, and every public key field starts with type byte 5; the message then carries exactly those fields, each key being the 32 bytes after the type byte (a shorter key is zero-padded and accepted). A version below 2 is reported as legacy, above 3 as unknown. DecodePoint inverts Serialize and no two keys share an encoding.", "quantifier": "every parsed field structure, every serializer and every byte string", "why_tests_cant": "an 'exactly when' over all byte strings: no finite sample shows nothing else is accepted", "anchors": ["protocol/signal_message.go NewSignalMessageFromStruct", "protocol/prekey_signal_message.go NewPreKeySignalMessageFromStruct", "protocol/sender_key_message.go", "protocol/sender_key_distribution_message.go", "ecc/curve.go DecodePoint"]}
{"id": "C63", "title": "Stores that keep only bytes behave like stores that keep records", "statement": "An application that keeps sessions, prekeys and signed prekeys only as the bytes Serialize returns gets, for every sequence of library calls (each depending on all earlier answers), the same answers, errors and panics as one whose stores keep the records; saved identities and current session states stay the same, and any conversation between two such users delivers what it would have delivered.", "quantifier": "every adaptive sequence of Encrypt, Decrypt, DecryptPreKey and ProcessBundle calls on any addresses, every start state, every network schedule", "why_tests_cant": "unbounded adaptive call histories; the reloaded prekeys differ from the stored ones in their public half, so equality is not structural", "anchors": ["session/session.go", "session/cipher.go", "state/record/session.go NewSessionFromBytes", "state/record/prekey.go NewPreKeyFromBytes", "state/record/signed_prekey.go NewSignedPreKeyFromBytes"]}
{"id": "C64", "title": "Forward secrecy: stealing a session does not reveal past message keys", "statement": "Take any session state and any sequence of later Encrypt and Decrypt calls (successful or not, with forged, replayed, reordered or lost messages). Whoever then steals everything the session state holds, and even knows every Diffie-Hellman output ever computed, cannot derive (by applying the keyed hash to what he has) the cipher key, MAC key or IV of any message sent or received meanwhile. The same holds for a whole stored record with archived states, as long as messages are decrypted by the current state, and when an archived state is promoted.", "quantifier": "every session state, every history of calls of any length, every random source, every attacker computation over the free keyed hash", "why_tests_cant": "a statement about everything an attacker could compute from the final state after any history", "anchors": ["session/cipher.go", "keys/chain/key.go", "ratchet/ratchet.go", "state/record/state_session.go RemoveMessageKeys"]}
{"id": "C65", "title": "Post-compromise security: one ratchet step with fresh randomness locks the thief out", "statement": "If everything in a session state is known to the attacker and afterwards the user processes any message carrying a new ratchet key, drawing fresh random bytes, then without the Diffie-Hellman output of that step the attacker can, in every later history, derive neither the root key, nor the sending chain key, nor the keys of any message sent, nor of any message received on a chain opened later.", "quantifier": "every compromised state, every ratchet message, every later history", "why_tests_cant": "quantifies over all later histories and all attacker computations", "anchors": ["session/cipher.go getOrCreateChainKey", "keys/root/key.go CreateChain"]}
{"id": "C66", "title": "A session is secret as long as one of the Diffie-Hellman outputs of its set-up is", "statement": "After ProcessBundle (initiator) or the first prekey message (responder), all keys of the session come from X3DH; if any single one of the three or four Diffie-Hellman outputs mixed there stays unknown to the attacker, he can derive no key of the session in any later history, whatever else he knows.", "quantifier": "every bundle, every prekey message, every one of the Diffie-Hellman outputs, every later history", "why_tests_cant": "all attacker computations over all later histories", "anchors": ["session/session.go ProcessBundle", "ratchet/ratchet.go CalculateSenderSession CalculateReceiverSession", "session/cipher.go"]}
{"id": "C67", "title": "Forward secrecy of group messages", "statement": "Take any stored sender key record and any sequence of later group Encrypt and Decrypt calls (successful or not), distribution messages bringing independent chain keys, and operations on other names. Whoever then steals the stored record cannot derive the key seed of any message sent or received meanwhile, nor the HKDF blocks its IV and cipher key are cut from.", "quantifier": "every record, every history of calls of any length, every attacker computation over the free keyed hash", "why_tests_cant": "a statement about everything an attacker could compute from the final record after any history", "anchors": ["groups/cipher.go", "groups/session_builder.go", "groups/ratchet/sender_chain_key.go", "groups/state/record/state_sender_key.go"]}
{"id": "C68", "title": "Made-up packets do not disturb a conversation", "statement": "Take the conversation of C03 and let the network, besides delivering, reordering, repeating and dropping genuine messages, deliver packets it made up: any bytes, as session or prekey messages, to either user under the other's address, at any moment. As long as no made-up packet is taken for genuine (which requires a valid MAC; such a call stores a session), every Encrypt succeeds, every genuine message within its window decrypts to what was sent, and everything else is refused with an error, exactly as if the made-up packets did not exist.", "quantifier": "all schedules of sends, deliveries and injected byte strings, all texts, random values, serializers, and key material", "why_tests_cant": "Quantifies over arbitrary attacker bytes interleaved at every point of arbitrary histories.", "anchors": ["session/cipher.go: Encrypt, Decrypt, DecryptMessage, DecryptWithRecord", "session/session.go: Process, processV3", "protocol/signal_message.go: NewSignalMessageFromBytes", "protocol/prekey_signal_message.go: NewPreKeySignalMessageFromBytes"]}
{"id": "C69", "title": "A one-time prekey is used up only by a message of the session set up with it", "statement": "When decrypting a prekey message removes a one-time prekey, the message inside was authenticated by the session that was set up from that prekey and the base key named in the message.", "quantifier": "all prekey messages, stores and session histories", "why_tests_cant": "Needs all combinations of existing sessions and prekey parts, including ones chosen by an attacker.", "anchors": ["session/cipher.go: DecryptMessageReturnKey, DecryptWithRecord", "session/session.go: Process, processV3"]}
{"id": "C70", "title": "A failing random source never yields key material", "statement": "If reading the operating system's random source fails, the call that needed a key returns an error and stores nothing: identity key pairs, prekeys, signed prekeys, session base and ratchet keys, group signing keys, group chain keys and ids.", "quantifier": "all reads of the random source, with any number of bytes delivered before the failure, at any call", "why_tests_cant": "Tests cannot make crypto/rand fail at chosen points; quantifies over all failures.", "anchors": ["ecc/curve.go: GenerateKeyPair, CalculateSignature", "util/keyhelper/key.go: GenerateIdentityKeyPair, GeneratePreKeys, GenerateLastResortKey, GenerateSignedPreKey, GenerateRegistrationID, GenerateSenderKey, GenerateSenderKeyID", "groups/session_builder.go: Create", "session/session.go: ProcessBundle"]}
{"id": "C71", "title": "A session can be set up anew whatever sessions exist", "statement": "Whatever sessions either user already has with the other, when Alice processes a new bundle of Bob's, the conversation that follows on the new session works: in every schedule of sends, reorderings, losses and deliveries within the limits, every delivered message decrypts to what was sent.", "quantifier": "all earlier session histories in both stores, all schedules, texts, random values and serializers", "why_tests_cant": "Quantifies over every state the stores can be in and every schedule of the new conversation.", "anchors": ["session/session.go: ProcessBundle, Process, processV3", "state/record/session_record.go: ArchiveCurrentState, PromoteState", "session/cipher.go: Encrypt, Decrypt, DecryptMessage, DecryptWithRecord"]}
{"id": "C72", "title": "Both users may set up a session at the same time", "statement": "When both users process the other's bundle before hearing from the other, both first messages decrypt to what was sent, and so do all later messages that are delivered once and in order.", "quantifier": "all users, key material, texts, earlier sessions and schedules in which both sides initiate", "why_tests_cant": "Depends on the interleaving of two sessions on both sides; a test fixes one interleaving.", "anchors": ["session/session.go: ProcessBundle, Process, processV3", "session/cipher.go: DecryptMessage, DecryptWithRecord, DecryptWithState", "state/record/session_record.go: PromoteState"]}
{"id": "C73", "title": "Sender-key stores that keep only bytes behave like stores that keep records", "statement": "An application that keeps sender key records only as the bytes Serialize returns gets, for every sequence of group calls (each possibly depending on all earlier answers), the same answers as one whose store keeps the records' contents.", "quantifier": "all applications, group names, messages, random values and numbers of calls", "why_tests_cant": "Every record reachable in any history must survive being written and read back at every call.", "anchors": ["groups/state/record/sender_key.go: Serialize, NewSenderKeyFromBytes", "serialize/json.go: JSONSenderKeySessionSerializer", "groups/cipher.go: Encrypt, Decrypt", "groups/session_builder.go: Process, Create"]}
{"id": "C74", "title": "Sender-key stores that hand out the stored object behave like stores that serialise", "statement": "An in-memory sender-key store that returns the stored object itself (as in the repository's tests) gives the same answers to every sequence of group calls as a store that serialises.", "quantifier": "all applications, messages and histories", "why_tests_cant": "Aliasing between the store and a failed call shows only in particular histories.", "anchors": ["groups/cipher.go: Decrypt, getSenderKey", "tests/stores.go: InMemorySenderKey"]}
{"id": "C75", "title": "A crash during a group call never causes key reuse and loses at most the message being processed", "statement": "If the process dies at any point during any group Encrypt calls and continues from the stored records, a message that was returned to the caller never shares its iteration and key with one built later. If a receiver's process dies at any point during any group Decrypt calls, every other message still decrypts within the window, a message whose call was cut short before storing can be delivered again, and no other group's keys are touched.", "quantifier": "all histories of calls, crash points and texts", "why_tests_cant": "Needs every crash point in every history.", "anchors": ["groups/cipher.go: Encrypt, Decrypt"]}
{"id": "C76", "title": "Concurrent group Encrypt calls do not share a message key", "statement": "When several goroutines encrypt for the same group at the same time, no two returned messages have the same iteration and key.", "quantifier": "all schedules, numbers of goroutines and texts", "why_tests_cant": "Depends on the scheduler's interleaving.", "anchors": ["groups/cipher.go: Encrypt"]}
{"id": "C77", "title": "Conversations with the in-memory session store", "statement": "Users who keep their sessions in the in-memory store of tests/stores.go (the library works on the stored objects themselves) get in every conversation, call by call, the same results as users whose stores keep copies: messages in the receive window decrypt to what was sent, everything else is refused without harm.", "quantifier": "all schedules of sends, deliveries, reorderings, losses and repetitions, all texts, either serializer, all keys", "why_tests_cant": "Harm done by a refused message shows only in later messages; every schedule matters.", "anchors": ["tests/stores.go: InMemorySession", "session/cipher.go: Encrypt, Decrypt, DecryptMessage", "session/session.go: ProcessBundle, Process"]}
{"id": "C78", "title": "Group conversations with any number of members work over any network schedule", "statement": "For any number of users in any number of groups, over every schedule of creating and processing distribution messages, sending, receiving any message sent so far in any order and any number of times, and receiving bytes not signed by the sender they are attributed to: a member who processed a distribution message decrypts every later message of that sender in that group to exactly its text as long as it lies in the receive window (2000 ahead, 2000 remembered), every repetition or too distant message is refused with an error, messages from before the distribution message are refused, and nothing that happens on other senders or groups interferes.", "quantifier": "all numbers of members and groups, all schedules, texts, random draws and injected bytes", "why_tests_cant": "Unbounded interleavings of many senders, receivers and groups.", "anchors": ["groups/session_builder.go: Create, Process", "groups/cipher.go: Encrypt, Decrypt", "protocol/sender_key_message.go", "protocol/sender_key_distribution_message.go"]}
{"id": "C79", "title": "A conversation is not affected by what its users do besides it", "statement": "Whatever either user does with the same stores besides the conversation (calls for any other peers with any arguments, including messages and bundles those peers made up, generating keys, storing and removing other prekeys, saving other identities, deleting other sessions), at any time, the two users observe of their conversation exactly what C03 says; made-up packets under the peer's address may arrive as in C68. Bob must not spend the one-time prekey of Alice's bundle on somebody else.", "quantifier": "all schedules of conversation events, made-up packets and other actions, all arguments, any number of other peers, either serializer, all keys", "why_tests_cant": "Interference through shared stores, shared randomness or shared prekeys can need any combination of calls for any peers.", "anchors": ["session/cipher.go: Encrypt, Decrypt, DecryptMessage", "session/session.go: ProcessBundle, Process", "state/store/*.go"]}
{"id": "C80", "title": "With a lock per peer, concurrent use of the session API is equivalent to calls made one after the other", "statement": "If any number of goroutines share the stores of one user and each holds the peer's lock while it calls Encrypt, Decrypt, DecryptMessage or ProcessBundle for that peer, then every goroutine gets exactly the answers, and the stores end up with exactly the contents, that some sequence of whole calls gives. A lock per peer suffices when no one-time prekey was handed to two peers; one lock for all calls suffices always.", "quantifier": "all schedules of the single store accesses, any number of goroutines, all adaptive programs, all arguments, all store contents", "why_tests_cant": "Race interleavings are not reproducible in tests.", "anchors": ["session/cipher.go: Encrypt, DecryptAndGetKey, DecryptMessageReturnKey", "session/session.go: Process, ProcessBundle", "state/store/*.go"]}
{"id": "C81", "title": "A conversation goes on after crashes", "statement": "Either user may die during any call, before, between or after its store operations, any number of times, and continue with what the stores hold. A call that was cut off counts as made if it had reached StoreSession (a message being encrypted is then skipped, a message being decrypted is lost to the application and refused when delivered again) and as not made otherwise; all completed calls return exactly what C03's specification says for that history. No crash point, including the one between storing the session and removing the one-time prekey, leaves the two users unable to talk.", "quantifier": "all schedules, all crash points of all calls, any number of crashes, either serializer, all texts and keys", "why_tests_cant": "Crash points and the histories around them multiply; tests do not kill the process between two store operations.", "anchors": ["session/cipher.go: Encrypt, DecryptAndGetKey, DecryptMessageReturnKey", "session/session.go: Process", "state/store/*.go"]}
{"id": "C82", "title": "With a lock per sender key name, concurrent use of the group API is equivalent to calls made one after the other", "statement": "If any number of goroutines share one sender-key store and each holds the name's lock while it calls Encrypt, Decrypt, Process or Create for that name, then every goroutine gets exactly the answers, and the store ends up with exactly the contents, that some sequence of whole calls gives.", "quantifier": "all schedules of the single store accesses, any number of goroutines, all adaptive programs, all arguments, all store contents, all assignments of locks to names", "why_tests_cant": "Race interleavings are not reproducible in tests.", "anchors": ["groups/cipher.go: Encrypt, Decrypt", "groups/session_builder.go: Process, Create", "groups/state/store/sender_key.go"]}
{"id": "C83", "title": "Damaged stored records give an error", "statement": "Loading a session record, session state, sender key record, sender key state, prekey or signed prekey from any bytes returns a record or an error; it never crashes.", "quantifier": "all byte strings", "why_tests_cant": "The bytes are arbitrary (a damaged database); a test tries some.", "anchors": ["serialize/json.go", "state/record/session.go: NewSessionFromBytes, NewSessionFromStructure", "state/record/state_session.go: NewStateFromStructure", "state/record/state_chain.go: NewChainFromStructure", "groups/state/record/state_sender_key.go: NewSenderKeyStateFromStructure", "ecc/curve.go: DecodePoint"]}
{"id": "C84", "title": "Session state methods return what was last written", "statement": "For every history of calls of AddReceiverChain, SetReceiverChainKey, SetMessageKeys and RemoveMessageKeys on a session state, no call crashes; HasReceiverChain is true exactly for the five ratchet keys added last; ReceiverChainKey returns the chain key written last for the ratchet key; HasMessageKeys says whether a message key with the number was set and not removed since (of the newest 2000), and false for an unknown ratchet key; RemoveMessageKeys removes and returns the key with the number, or nothing; SenderChainKey and SenderBaseKey return what was set last.", "quantifier": "every history of calls on a session state, every ratchet key, message number, chain key and message key", "why_tests_cant": "histories are unbounded and the bounds (five chains, 2000 keys) interact with every order of calls", "anchors": ["state/record/state_session.go: State.AddReceiverChain, ReceiverChainKey, SetReceiverChainKey, HasMessageKeys, RemoveMessageKeys, SetMessageKeys, SetSenderChain, SenderChainKey, SetSenderChainKey, SetSenderBaseKey", "state/record/state_chain.go: Chain.AddMessageKeys, PopFirstMessageKeys"]}
{"id": "C85", "title": "What a session accepts was sent by the peer's session", "statement": "After Alice processed Bob's bundle and Bob accepted her first message, and whatever both then do with their sessions, an attacker who lacks one of the Diffie-Hellman outputs of the key agreement but knows everything else, and has seen all messages, cannot make a message that Decrypt accepts: an accepted message carries the ratchet key, counters and ciphertext of a message the peer's session sent, and Decrypt returns the plaintext that was given to Encrypt. The same in both directions, for both serializers.", "quantifier": "every pair of histories of the two sessions, every Diffie-Hellman output the attacker may lack, every message he can compute", "why_tests_cant": "an attacker is not a finite set of inputs; histories are unbounded", "anchors": ["session/cipher.go: Cipher.Encrypt, Decrypt, DecryptWithState, verification of the MAC", "session/session.go: Process, ProcessBundle", "protocol/signal_message.go: NewSignalMessage, VerifyMac, macFor", "ratchet/ratchet.go: CalculateSenderSession, CalculateReceiverSession"]}
{"id": "C86", "title": "Stored records and JSON messages may be reformatted", "statement": "If the bytes that Serialize returned for a session record, session state, sender key record or state, prekey or signed prekey, or the JSON bytes of a message, are rewritten by some JSON tool - white space added, members reordered, their names in another case, characters written as escapes, further members added - loading them gives the same record, state or message. What Serialize returns is always a JSON text (RFC 8259).", "quantifier": "every record, state and message; every text that says what the original says", "why_tests_cant": "there are infinitely many ways to write a document", "anchors": ["serialize/json.go: all serializers", "state/record/session.go: NewSessionFromBytes, Serialize", "state/record/state_session.go: NewStateFromBytes", "groups/state/record/sender_key.go: NewSenderKeyFromBytes", "state/record/prekey.go, signed_prekey.go: NewPreKeyFromBytes, NewSignedPreKeyFromBytes"]}
{"id": "C87", "title": "The loaders read JSON, all of it and nothing else", "statement": "With the JSON serializer every loader (of session records and states, sender key records and states, prekeys, signed prekeys and the four message types) refuses bytes that are no JSON text, or the text of neither an object nor null, with an error and without a crash; and what it makes of a JSON text depends only on the document, not on how it is written.", "quantifier": "all byte strings, all documents, all pairs of texts of a document", "why_tests_cant": "the claim ranges over all byte strings", "anchors": ["serialize/json.go: all Deserialize methods", "state/record/session.go: NewSessionFromBytes", "groups/state/record/sender_key.go: NewSenderKeyFromBytes", "protocol/signal_message.go: NewSignalMessageFromBytes"]}
{"id": "C88", "title": "The logger follows its configuration", "statement": "Over every history of Setup, Configure and log calls each log call has exactly the effect the history prescribes: the logger installed by the last Setup gets it; otherwise warnings and errors of the callers named by the last Configure (all callers before any) are printed and nothing else; an empty configuration prints nothing; and this also holds when goroutines call concurrently, without crashes.", "quantifier": "every history of calls, every configuration string, every caller, and every interleaving of any number of goroutines", "why_tests_cant": "Histories, strings and schedules are unbounded; the harmful interleaving is a window of one instruction.", "anchors": ["logger/logger.go: Setup, ensureLogger, Debug, Info, Warning, Error, Configure", "logger/default.go: shouldLog, ensureNamespaces, Configure, log"]}
{"id": "C89", "title": "No secrets reach the log", "statement": "Whatever is encrypted or decrypted, what the library hands to the logger contains no key, no MAC that would make a forgery valid and no plaintext; rejected messages leave a line telling the reason, accepted ones none.", "quantifier": "every session state or record, message, plaintext, key store and random source", "why_tests_cant": "A test sees one message and one log; absence of secrets must hold for all paths, including the failing ones.", "anchors": ["session/cipher.go: Encrypt, DecryptWithKey, DecryptWithRecord, DecryptWithState, decrypt, encrypt", "session/session.go: processV3", "protocol/signal_message.go: VerifyMac", "serialize/json.go: JSONStateSerializer.Serialize", "serialize/proto.go: ProtoBufSenderKeyDistributionMessageSerializer.Serialize", "logger/default.go: Debug, Info, Warning, Error"]}
{"id": "C90", "title": "Asynchronous calls answer once, with the synchronous result", "statement": "VerifySignatureAsync, CalculateSignatureAsync and GenerateIdentityKeyPairAsync call the completion object exactly once, with the result the synchronous function gives for the arguments as they were at the call, whatever else the program does meanwhile.", "quantifier": "every execution: any number of calls, any order in which the scheduler runs their goroutines, any writes to memory in between, any outcome of the random source", "why_tests_cant": "The order of goroutines and of the caller's later writes is up to the scheduler.", "anchors": ["ecc/curve.go: VerifySignatureAsync, CalculateSignatureAsync", "util/keyhelper/key.go: GenerateIdentityKeyPairAsync"]}
{"id": "C91", "title": "Session calls never crash", "statement": "Whatever was received and stored before, ProcessBundle, Encrypt, Decrypt and DecryptMessage return a result or an error: they never panic.", "quantifier": "every history of session calls and store maintenance from empty session stores, every random source, every bundle, plaintext and byte string parsed as a message", "why_tests_cant": "A panic may need a particular state reached by a long history together with particular received bytes; tests try few of either.", "anchors": ["session/cipher.go: Encrypt, Decrypt, DecryptMessage", "session/session.go: ProcessBundle, Process", "cipher/Cbc.go: DecryptCbc"]}
{"id": "C92", "title": "Null members of stored records and JSON messages may be left out", "statement": "Removing members whose value is null from the JSON text of a session record, session state, sender key record or state, prekey, signed prekey or message (at any depth), or adding such members, does not change what the loaders make of it, as long as no object repeats a name. What Serialize returns repeats no name.", "quantifier": "all documents without repeated names nested at most 10000 deep (Go's limit), all ways to write them, all ten loaders", "why_tests_cant": "there are infinitely many documents and places for a null", "anchors": ["serialize/json.go: all Deserialize methods", "state/record/session.go: NewSessionFromBytes", "protocol/signal_message.go: NewSignalMessageFromBytes"]}
{"id": "C93", "title": "Group calls never crash", "statement": "Whatever distribution messages and group messages were received before, Create, Process, Encrypt and Decrypt of the group API return a result or an error: they never panic.", "quantifier": "every history of group calls from an empty sender key store (one that serialises records, or one that hands out its objects), every distribution message, message, plaintext and random draw", "why_tests_cant": "A panic may need a particular state reached by a long history together with particular received bytes; tests try few of either.", "anchors": ["groups/cipher.go: Encrypt, Decrypt, getSenderKey", "groups/session_builder.go: Process, Create", "groups/state/record/sender_key.go: AddSenderKeyState"]}
{"id": "C94", "title": "Accepted group messages were sent by the owner of the sender key, each once", "statement": "After a receiver processed a sender's distribution message (for a key id new to it), the plaintexts its Decrypt calls return for messages naming that sender and key id are the plaintexts of distinct Encrypt calls of that sender, as long as nobody forged a signature under the sender's signing key; in particular other members of the group, who hold the chain key, cannot make it accept a message the sender did not send, nor the same message twice.", "quantifier": "every sender state and sequence of Encrypt calls, every later history of group calls at the receiver (any names, distribution messages and received bytes), both serializers", "why_tests_cant": "The adversary may deliver any bytes in any order at any point of any history; a test tries a handful of forgeries and replays.", "anchors": ["groups/cipher.go: Decrypt, getSenderKey, verifySignature", "groups/session_builder.go: Process, Create", "protocol/sender_key_message.go: NewSenderKeyMessageFromBytes, Serialize"]}
{"id": "C95", "title": "Group conversations survive crashes", "statement": "When members of groups die during any call (creating or processing a distribution message, encrypting, decrypting) and continue later from their stored records, every completed call still behaves as if nothing had happened, except that a call cut off after it stored its record counts as made and its result is lost - no other message becomes unreadable and none becomes readable twice.", "quantifier": "any number of members and groups, every schedule of calls, deliveries, repetitions and forged bytes, every set of crash points", "why_tests_cant": "Crash points multiply with the length and interleaving of the conversation; a test visits a few.", "anchors": ["groups/cipher.go: Encrypt, Decrypt", "groups/session_builder.go: Process, Create", "groups/state/store/sender_key.go: SenderKey"]}
{"id": "C96", "title": "Messages are accepted and sent only in sessions with identities the application accepted", "statement": "Whatever a user does and receives, every message that Decrypt or DecryptMessage accepts under an address, and every message Encrypt makes for it, belongs to a session that was set up under that very address by ProcessBundle (with a validly signed prekey) or DecryptMessage with an identity key for which IsTrustedIdentity then answered yes, and that was not deleted since; the message is authenticated with that identity and the user's own. In particular, if the application accepts only one identity for an address, nothing authenticated with another identity is ever accepted there.", "quantifier": "every sequence of session API calls with any arguments and any received messages, store operations and deaths between any two store operations of a call, starting without sessions; every trust policy; stores that serialise records or hand out the live object", "why_tests_cant": "The history is unbounded and adversarial: archived sessions, rewrapped prekey messages, failed attempts and crashes can come in any order; a test sees one.", "anchors": ["session/cipher.go: Encrypt, Decrypt, DecryptMessage, DecryptWithRecord, DecryptWithState", "session/session.go: Process, processV3, ProcessBundle", "state/record/session.go: ArchiveCurrentState, PromoteState, HasSessionState"]}
{"id": "C97", "title": "Accepted messages were sent by the holder of the accepted identity, whatever all users do", "statement": "Take any number of users, each doing anything with the session API and its stores, with an attacker who delivers, drops, forges and replays at will, who knows everything except one Diffie-Hellman output and has seen the authentication tags on all messages of everybody. Every message that Decrypt or DecryptMessage accepts, in a session whose set-up mixed that output, was made by Encrypt of a user who holds the identity key the application accepted for that session, in a session with the accepting user's identity: same ratchet key, counters and ciphertext, and the plaintext returned is the one encrypted (unless the attacker produced a valid tag by chance). The attacker can compute none of the keys of messages accepted or sent in such sessions.", "quantifier": "any number of users; every life of each (any calls with any arguments, any received messages, store operations, deaths within calls), starting without sessions; every Diffie-Hellman output of a session's set-up; symbolic attacker; serialising stores, both serializers", "why_tests_cant": "It quantifies over attackers and over all histories of all users, with archived, promoted and duplicated session states.", "anchors": ["session/cipher.go: Encrypt, Decrypt, DecryptMessage, DecryptWithRecord, DecryptWithState", "session/session.go: Process, ProcessBundle", "state/record/session.go: ArchiveCurrentState, PromoteState", "ratchet/ratchet.go: CalculateSenderSession, CalculateReceiverSession", "protocol/signal_message.go: VerifyMac"]}
{"id": "C98", "title": "No two messages are sent with the same key", "statement": "Over its whole life, with all its correspondents, a user never encrypts two messages at the same position: no two messages made by Encrypt carry the same sender ratchet key and the same counter (which select the message key).", "quantifier": "every life of a user (any calls with any arguments, any received messages incl. replays and forgeries, store operations, deaths within calls) of fewer than 2^32 steps that begins without sessions, with a random source that never yields the same ratchet key twice; every pair of Encrypt calls in it; serialising stores", "why_tests_cant": "Ranges over all histories, in which sessions are archived, promoted, duplicated, deleted and set up again, and over all crash points.", "anchors": ["session/cipher.go: Encrypt, Decrypt, DecryptMessage, DecryptWithRecord", "session/session.go: Process, ProcessBundle", "state/record/session.go: ArchiveCurrentState, PromoteState", "state/record/state_session.go: SetSenderChain, SetSenderChainKey"]}
{"id": "C99", "title": "No two group messages are sent with the same key", "statement": "Over a whole group life, whatever else the user creates, processes and decrypts under whatever names and wherever it dies, the messages that group Encrypt returns for one sender key name all carry the same key id and pairwise different iterations, so no message key is used twice.", "quantifier": "every sequence of group calls with any arguments (including hostile messages and distribution messages, under one's own name too), each completed or cut off before or after its StoreSenderKey, starting from an empty store; every pair of Encrypt calls for the same name; both serializers; serialising stores; lives shorter than 2^32/2001 calls", "why_tests_cant": "Ranges over all histories and crash points; the failing histories need two thousand intermediate calls.", "anchors": ["groups/cipher.go: Encrypt, Decrypt, getSenderKey", "groups/session_builder.go: Create, Process", "groups/state/record/sender_key.go: AddSenderKeyState, SenderKeyState"]}
{"id": "C100", "title": "A conversation under everything at once", "statement": "After Alice processed Bob's bundle, every completed call of their conversation returns what the specification of a conversation says, while at the same time the network reorders, repeats and drops messages and makes up packets, both users talk to other peers and maintain their stores, and either may die between any two store operations of any call and continue with what the stores hold.", "quantifier": "every interleaving, of any length below 2^32/42, of texts sent, deliveries, made-up packets that are not taken for genuine, calls for other peers with any arguments and store operations, each completed or cut off after any number of its store operations; both serializers; every primitive satisfying the DH and AES laws", "why_tests_cant": "Ranges over all interleavings of two users, a hostile network, all other peers and all crash points at once; interactions between these are what tests of each alone miss.", "anchors": ["session/cipher.go: Encrypt, Decrypt, DecryptMessage", "session/session.go: ProcessBundle, Process", "state/store/*.go"]}
{"id": "C101", "title": "A message key is used once: a message is accepted at most once", "statement": "As long as a user keeps a session, no message key is used twice in it, be it for two messages sent, two received, or one of each; in particular a message that Decrypt or DecryptMessage accepted is not accepted again, however often it is delivered.", "quantifier": "every life of a user: any sequence of session API calls with any arguments (forged, reordered and repeated messages included) and store operations, calls cut off by death after any number of store operations, any number of steps between the two uses; both serializers; every keyed hash", "why_tests_cant": "A replay may come after any history: after ratchet steps, evicted chains, dropped keys, crashes and failed calls; the key terms must be distinct for all of them.", "anchors": ["session/cipher.go: Encrypt, Decrypt, DecryptMessage, DecryptWithRecord, getOrCreateMessageKeys", "session/session.go: Process", "state/record: PromoteState"]}
{"id": "C102", "title": "Two fresh installations can talk", "statement": "A user who makes the calls of an installation (generate an identity key pair, prekeys and a signed prekey; put them into empty stores) with a working random source obtains records whose private and public keys belong together, which are all in the stores under the identifiers that are published, and whose signature verifies. If two users have installed the library like this and one publishes a bundle with any of its one-time prekeys, ProcessBundle of the other succeeds, and everything they then send in either direction, delivered in any order, late, or repeatedly, is decrypted to what was sent, once.", "quantifier": "every installation (any range of prekey identifiers, any signed prekey identifier, any random bytes), every published one-time prekey, every schedule of sends and deliveries after it, both serializers", "why_tests_cant": "The test-suite publishes the first prekey of one range and sends a few messages in order; the claim is about every prekey, every identifier and every schedule, starting from the key generation.", "anchors": ["util/keyhelper/key.go: GenerateIdentityKeyPair, GeneratePreKeys, GenerateSignedPreKey", "keys/prekey/bundle.go: NewBundle", "session/session.go: ProcessBundle", "session/cipher.go: Encrypt, Decrypt, DecryptMessage", "README.md", "tests/user.go: newUser"]}
{"id": "C103", "title": "A signature belongs to one message, and nonces do not repeat", "statement": "Under a public key the library generated, no 64 bytes are accepted by VerifySignature for two different messages, and CalculateSignature never uses one nonce for two different messages, even if the random source fails (its error is ignored) or repeats itself; both up to a collision of SHA-512 modulo the group order, which the theorems exhibit.", "quantifier": "every generated key, every pair of messages, every 64 bytes presented as a signature, every outcome of the random source", "why_tests_cant": "It is about all signatures an adversary could present and all pairs of messages ever signed; a test can only try some.", "anchors": ["ecc/curve.go: VerifySignature, CalculateSignature, GenerateKeyPair", "ecc/sign_curve25519.go: sign, verify", "ecc/edwards25519/edwards25519.go"]}
{"id": "C104", "title": "A cipher's calls concern the address it was made for, however it was constructed", "statement": "Whichever constructor and arguments made a session cipher (or a group cipher), Encrypt, Decrypt and DecryptMessage load, change and store only the session of the address given to the constructor, ask for trust in and save the identity of that address only, and handle every message that a cipher made the usual way handles.", "quantifier": "every constructor, every address of the cipher and of its builder, every store, trust policy, message and random source", "why_tests_cant": "It ranges over all pairs of addresses, stores and messages; the repository's tests only ever use a builder and a cipher made with the same address, and never decrypt a prekey message with NewCipherFromSession.", "anchors": ["session/cipher.go: NewCipher, NewCipherFromSession, DecryptMessage, Decrypt, Encrypt", "session/session.go: NewBuilder, NewBuilderFromSignal, Process", "groups/cipher.go: NewGroupCipher, Encrypt, Decrypt"]}
{"id": "C105", "title": "Groups set up over sessions work", "statement": "Two users with a session send each other the distribution messages of their group lines as session messages; whatever the order, loss and repetition of session and group messages, and whatever other members do, a user who decrypted such a session message and processed it reads the group messages of that sender from then on, each exactly once and unaltered; repeated invitations do no harm, and texts exchanged in the session are not affected by the group traffic.", "quantifier": "every schedule of session messages, invitations, group messages, deliveries and forgeries, every application framing that can be read back, both serializers, any number of groups and further members", "why_tests_cant": "It composes two protocols over all interleavings; a test fixes one order.", "anchors": ["session/cipher.go: Encrypt, Decrypt, DecryptMessage", "groups/session_builder.go: Create, Process", "groups/cipher.go: Encrypt, Decrypt", "protocol/sender_key_distribution_message.go: NewSenderKeyDistributionMessageFromBytes, Serialize"]}
{"id": "C106", "title": "Signing and MAC checks take the same steps whatever the secrets", "statement": "CalculateSignature executes the same statements, touches the same array elements, takes the same branches and calls the hash function with the same lengths for every private key, every message of a given length and all random bytes; and checking the MAC of a received message takes the same steps for every MAC key and every MAC of a given length as long as the verdict is the same, so that the time of a refusal does not tell how much of a guessed MAC was right.", "quantifier": "all private keys, random bytes, hash functions and messages of equal length; all messages, MAC keys of equal length and MACs of equal length with the same verdict", "why_tests_cant": "Timing tests measure some keys on one machine; that no key, nonce or guessed MAC changes the sequence of statements, branches and addresses is a statement about pairs of runs on all secrets.", "anchors": ["ecc/sign_curve25519.go:sign", "ecc/edwards25519/edwards25519.go:GeScalarMultBase", "ecc/edwards25519/edwards25519.go:selectPoint", "ecc/edwards25519/edwards25519.go:FeCMove", "ecc/edwards25519/edwards25519.go:ScMulAdd", "protocol/signal_message.go:VerifyMac"]}
{"id": "C107", "title": "The work for one message is bounded", "statement": "Decrypting any incoming message - a message of an established session, a message that starts a session, a group message; authentic or forged; with any counter - ends after a bounded number of calls of cryptographic primitives (HMAC, Diffie-Hellman, AES, key generation, signature check): at most 30017 for each of the at most 41 session states, 7 more for a new session, and 10007 for a group message, of which a message not signed by a known sender key gets one. Encrypting takes at most 8. The bound is nearly reached: a message with a wrong MAC and a counter n <= 5000 ahead of a known chain costs 6*(n+1) HMACs before it is refused.", "quantifier": "every record reachable through the public operations, every message, counter and MAC, every group record; every n up to 5000", "why_tests_cant": "a test times some messages; that no counter, archive or history makes an endless or unbounded computation is a claim about all of them", "anchors": ["session/cipher.go: DecryptAndGetKey, DecryptMessageReturnKey, DecryptWithRecord, DecryptWithState, getOrCreateChainKey, getOrCreateMessageKeys, Encrypt", "session/session.go: Process, processV3", "ratchet/ratchet.go: CalculateReceiverSession", "keys/chain/key.go: NextKey, MessageKeys", "keys/root/key.go: CreateChain", "kdf/hkdf.go: DeriveSecrets", "groups/cipher.go: Decrypt, getSenderKey", "groups/ratchet/sender_chain_key.go"]}
{"id": "C108", "title": "Key agreement is X25519, and the whole library works on the RFCs' primitives", "statement": "CalculateSharedSecret(their public key, our private key) returns the u-coordinate of the base point multiplied by both private scalars, so both parties get the same 32 bytes; the result is never all zero, and one private key gives different secrets with different public keys, for all keys the library generates. With the library's own signing code on top, two users who install the library from nothing can hold any conversation, assuming only RFC 7748 of X25519, RFC 8032 of Ed25519 verification, and that AES decryption undoes encryption.", "quantifier": "all pairs (and triples) of 32-byte private keys; all conversations, installations and schedules of C102; all libraries obeying the RFCs", "why_tests_cant": "there are 2^502 pairs of private keys; the argument needs the group law of the curve and the primality of the group order", "anchors": ["kdf/hkdf.go:CalculateSharedSecret", "keys/root/key.go:CreateChain", "ratchet/ratchet.go:CalculateSenderSession", "ratchet/ratchet.go:CalculateReceiverSession", "ecc/sign_curve25519.go"]}
{"id": "C109", "title": "Comparing fingerprints tells identities apart", "statement": "If two users compare the text of their fingerprints (their own and their peer's) and the texts are the same, each of them holds the other's real identity; if they hold the real identities, the texts are the same. Fingerprints of different identities are shown differently, by DisplayText and by Scan.", "quantifier": "all pairs of fingerprints, all generators of fingerprints, all users and beliefs", "why_tests_cant": "Ranges over all byte strings; a test compares a few keys.", "anchors": ["fingerprint/display.go: NewDisplay, DisplayText, displayStringFor, encodedChunk", "fingerprint/fingerprint.go: NewFingerprint, Scan", "util/bytehelper/byte.go: Bytes5ToInt64"]}
