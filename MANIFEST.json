{
 "claims": [
  {
   "property": "C01",
   "status": "proved",
   "theorems": [
    "Verif.C01_x3dh_agreement",
    "Verif.C01_x3dh_transcript"
   ],
   "note": "For every Crypto record whose DH commutes on base-point multiples; with and without one-time prekey."
  },
  {
   "property": "C02",
   "status": "partial",
   "theorems": [
    "Verif.C02_symmetric_agreement_partial",
    "Verif.C02_symmetric_agreement_false",
    "Verif.C02_tie_elects_nobody"
   ],
   "note": "The full statement is false of the code (C02_symmetric_agreement_false, C02_tie_elects_nobody: only 4 serialised bytes are compared). Proved when the comparison tells the base keys apart."
  },
  {
   "property": "C03",
   "status": "proved",
   "theorems": [
    "Verif.C03_conversation"
   ],
   "note": "Refinement: for every event list, the two stores+serialised wire behave as Spec/Talk.lean says (each acceptable message decrypts to its text, others are refused). Assumes DH and AES laws, distinct generated keys, fewer than 2^32 events; bundle with a one-time prekey (without one the flow is broken, C16). Turns older than the five newest are outside the claim."
  },
  {
   "property": "C04",
   "status": "proved",
   "theorems": [
    "Verif.C04_receive_window",
    "Verif.C04_window_reading"
   ],
   "note": "Refinement of the receive window specification (Spec/Window.lean) for all counter sequences."
  },
  {
   "property": "C05",
   "status": "proved",
   "theorems": [
    "Verif.C05_no_replay",
    "Verif.C05_no_replay_same_chain",
    "Verif.C05_wrap_false"
   ],
   "note": "For fewer than 2^32 messages on the chain; C05_wrap_false shows the claim fails beyond."
  },
  {
   "property": "C06",
   "status": "proved",
   "theorems": [
    "Verif.C06_bounded"
   ],
   "note": "Invariant over all public mutators, serialisation and reload."
  },
  {
   "property": "C07",
   "status": "partial",
   "theorems": [
    "Verif.C07_boundary_partial",
    "Verif.C07_new_chain_false"
   ],
   "note": "Boundary exact; 'unchanged' holds on existing chains, and is false for a message opening a new chain (C07_new_chain_false)."
  },
  {
   "property": "C08",
   "status": "proved",
   "theorems": [
    "Verif.C08_consecutive",
    "Verif.C08_no_reuse"
   ],
   "note": "Store level: any number of consecutive Encrypt calls."
  },
  {
   "property": "C09",
   "status": "partial",
   "theorems": [
    "Verif.C09_live_false",
    "Verif.C09_decrypt_error_partial",
    "Verif.C09_decryptPreKey_error_partial"
   ],
   "note": "Proved for the serialising stores (the repository's own session store interface contract); see C09_live_false for stores that hand out live pointers."
  },
  {
   "property": "C10",
   "status": "proved",
   "theorems": [
    "Verif.C10_mac_input_injective",
    "Verif.C10_json_mac_input_injective",
    "Verif.C10_decrypt_checks_mac",
    "Verif.C10_json_decrypt_checks_mac",
    "Verif.C10_version_must_match"
   ],
   "note": "Version-3 states: MAC input injective in identities, version and all parsed fields, and decrypt returns plaintext only if the MAC verifies."
  },
  {
   "property": "C11",
   "status": "proved",
   "theorems": [
    "Verif.C11_bundle",
    "Verif.C11_preKey_message"
   ],
   "note": "Bundles and prekey messages."
  },
  {
   "property": "C12",
   "status": "partial",
   "theorems": [
    "Verif.C12_trust_ignored_false",
    "Verif.C12_overwrites_false"
   ],
   "note": "False of the code: C12_trust_ignored_false, C12_overwrites_false. Only the establishment half (C11) holds."
  },
  {
   "property": "C13",
   "status": "proved",
   "theorems": [
    "Verif.C13_signature_required",
    "Verif.C13_session_implies_verified"
   ],
   "note": ""
  },
  {
   "property": "C14",
   "status": "proved",
   "theorems": [
    "Verif.C14_removed_only_after_success",
    "Verif.C14_removed_on_success",
    "Verif.C14_not_removed_on_error"
   ],
   "note": ""
  },
  {
   "property": "C15",
   "status": "proved",
   "theorems": [
    "Verif.C15_repeated_preKey_message"
   ],
   "note": ""
  },
  {
   "property": "C16",
   "status": "partial",
   "theorems": [
    "Verif.C16_no_one_time_prekey_false",
    "Verif.C16_max_value_false",
    "Verif.C16_concrete_false",
    "Verif.C16_inner_partial"
   ],
   "note": "False of the code (C16_*_false); the inner decoding half is proved (C16_inner_partial)."
  },
  {
   "property": "C17",
   "status": "proved",
   "theorems": [
    "Verif.C17_prekey_wrapping"
   ],
   "note": "All histories of encrypts and decrypts, until a panic; success with any state of the record ends the wrapping."
  },
  {
   "property": "C18",
   "status": "partial",
   "theorems": [
    "Verif.C18_full_archive_partial",
    "Verif.C18_duplicate_false",
    "Verif.C18_replay_false"
   ],
   "note": "False of the code: C18_duplicate_false (oldest archived state duplicated), C18_replay_false (one message decrypted twice). Proved when the archive is full: C18_full_archive_partial."
  },
  {
   "property": "C19",
   "status": "partial",
   "theorems": [
    "Verif.C19_forged_consumes_false",
    "Verif.C19_archived_corrupts_false",
    "Verif.C19_early_failures_partial",
    "Verif.C19_failure_effect_exact"
   ],
   "note": "False of the code: C19_forged_consumes_false, C19_archived_corrupts_false. Failures before key derivation leave the state alone: C19_early_failures_partial. C19_failure_effect_exact: what any attempt leaves in memory depends only on the version, ratchet key and counter the message names, so a failure costs exactly what the genuine message with that header would have changed."
  },
  {
   "property": "C20",
   "status": "partial",
   "theorems": [
    "Verif.C20_previous_counter_partial",
    "Verif.C20_underflow_false",
    "Verif.C20_messages_carry_it_partial"
   ],
   "note": "False when nothing was sent on the previous chain (C20_underflow_false: 2^32-1). Otherwise proved."
  },
  {
   "property": "C21",
   "status": "proved",
   "theorems": [
    "Verif.C21_record_roundtrip"
   ],
   "note": ""
  },
  {
   "property": "C22",
   "status": "partial",
   "theorems": [
    "Verif.C22_prekey_roundtrip_partial",
    "Verif.C22_signed_prekey_roundtrip_partial",
    "Verif.C22_reloaded_public_key",
    "Verif.C22_prekey_roundtrip_false",
    "Verif.C22_signed_prekey_roundtrip_false"
   ],
   "note": "Full statement false (reloaded public keys are shifted); id, private key, timestamp, signature survive."
  },
  {
   "property": "C23",
   "status": "partial",
   "theorems": [
    "Verif.C23_roundtrip_partial",
    "Verif.C23_receive_only_false"
   ],
   "note": "Full statement false for receive-only states (C23_receive_only_false: a missing private key becomes 32 zero bytes); owned records come back identical and everything else survives for all records."
  },
  {
   "property": "C24",
   "status": "proved",
   "theorems": [
    "Verif.C24_mac_verifies",
    "Verif.C24_wire_roundtrip",
    "Verif.C24_version2_false",
    "Verif.C24_json_version2",
    "Verif.C24_encrypt"
   ],
   "note": "Version 3 (the version Encrypt uses); C24_version2_false for version 2."
  },
  {
   "property": "C25",
   "status": "partial",
   "theorems": [
    "Verif.C25_wire_roundtrip_partial",
    "Verif.C25_construct_partial",
    "Verif.C25_absent_id_false",
    "Verif.C25_json"
   ],
   "note": "Holds with a prekey id; false without (C25_absent_id_false)."
  },
  {
   "property": "C26",
   "status": "proved",
   "theorems": [
    "Verif.C26_sender_key_message",
    "Verif.C26_distribution_message"
   ],
   "note": ""
  },
  {
   "property": "C27",
   "status": "partial",
   "theorems": [
    "Verif.C27_signal_partial",
    "Verif.C27_sender_key_partial",
    "Verif.C27_prekey_partial",
    "Verif.C27_distribution_partial",
    "Verif.C27_false",
    "Verif.C27_json_false"
   ],
   "note": "Full statement false (C27_false); exact panic conditions proved."
  },
  {
   "property": "C28",
   "status": "partial",
   "theorems": [
    "Verif.C28_decrypt_no_iv_in_place",
    "Verif.C28_cbc_roundtrip_partial",
    "Verif.C28_cbc_roundtrip_nil_iv_partial",
    "Verif.C28_decrypt_panics_iff",
    "Verif.C28_decrypt_no_panic_partial",
    "Verif.C28_nil_iv_panic_false",
    "Verif.C28_unpad_lax",
    "Verif.C28_pkcs7_roundtrip",
    "Verif.C28_pkcs7_no_panic",
    "Verif.C28_pkcs7_strict"
   ],
   "note": "Round trip and length proved; panics exactly characterised, incl. nil-IV panic (C28_nil_iv_panic_false)."
  },
  {
   "property": "C29",
   "status": "proved",
   "theorems": [
    "Verif.C29_group_delivery",
    "Verif.C29_any_order"
   ],
   "note": "End to end over the wire formats and a serialising store; every delivery order, repetition and omission, interleaved with bytes not signed by the sender; iterations below 2^32; receiver without a state of that key id (see C33)."
  },
  {
   "property": "C30",
   "status": "proved",
   "theorems": [
    "Verif.C30_bounded",
    "Verif.C30_no_replay"
   ],
   "note": "All histories of Encrypt/Decrypt/Process/Create over all names from an empty store; no-replay up to the 32-bit wrap-around and as long as the state is not pushed out of a full record; bounds unconditionally. C94_overflow_false shows that the record bound is needed: 2000 further Process calls make a replay succeed."
  },
  {
   "property": "C31",
   "status": "proved",
   "theorems": [
    "Verif.C31_signature_first",
    "Verif.C31_rejects"
   ],
   "note": ""
  },
  {
   "property": "C32",
   "status": "proved",
   "theorems": [
    "Verif.C32_consecutive",
    "Verif.C32_no_reuse"
   ],
   "note": ""
  },
  {
   "property": "C33",
   "status": "partial",
   "theorems": [
    "Verif.C33_lookup_by_id",
    "Verif.C33_new_id_partial",
    "Verif.C33_same_id_false"
   ],
   "note": "Holds for a new key id; false for an id already present (C33_same_id_false: the old state shadows the new one)."
  },
  {
   "property": "C34",
   "status": "proved",
   "theorems": [
    "Verif.C34_display_symmetric",
    "Verif.C34_display_shape",
    "Verif.C34_display_short_panics"
   ],
   "note": ""
  },
  {
   "property": "C35",
   "status": "proved",
   "theorems": [
    "Verif.C35_address_string_injective",
    "Verif.C35_address_injective",
    "Verif.C35_identity_fingerprint",
    "Verif.C35_identity_fingerprint_text"
   ],
   "note": ""
  },
  {
   "property": "C36",
   "status": "proved",
   "theorems": [
    "Verif.C36_generate",
    "Verif.C36_create",
    "Verif.C36_create_clamped",
    "Verif.C36_pub_roundtrip",
    "Verif.C36_signed_prekey_verifies"
   ],
   "note": ""
  },
  {
   "property": "C37",
   "status": "partial",
   "theorems": [
    "Verif.C37_generatePreKeys_partial",
    "Verif.C37_generatePreKeys_false",
    "Verif.C37_random_failure",
    "Verif.C37_last_resort_id"
   ],
   "note": "Full statement false (count-start+1 records); exact characterisation proved."
  },
  {
   "property": "C38",
   "status": "partial",
   "theorems": [
    "Verif.C38_authenticated_partial",
    "Verif.C38_roundtrip_partial",
    "Verif.C38_malformed_partial",
    "Verif.C38_malformed_false",
    "Verif.C38_text_roundtrip_partial",
    "Verif.C38_text_authenticated_partial",
    "Verif.C38_text_undecodable",
    "Verif.C38_text_malformed_false"
   ],
   "note": "Authentication and round trip proved for the byte functions and for the base64/JSON envelope (text functions); malformed input may panic (C38_malformed_false, C38_text_malformed_false), exact condition proved."
  },
  {
   "property": "C39",
   "status": "proved",
   "theorems": [
    "Verif.C39_crash_no_reuse"
   ],
   "note": "All histories of crashes and restarts."
  },
  {
   "property": "C40",
   "status": "proved",
   "theorems": [
    "Verif.C40_crash_recoverable"
   ],
   "note": "Messages of version 3, counter below 2^32-1, a trust policy that keeps accepting the saved identity, working randomness. When the crash falls between storing the session and removing the prekey, the prekey is never removed."
  },
  {
   "property": "C41",
   "status": "partial",
   "theorems": [
    "Verif.C41_concurrent_false",
    "Verif.C41_with_mutex_partial"
   ],
   "note": "False of the code (C41_concurrent_false: for every session two interleaved calls share counter and keys). Proved for applications that hold a lock per call, all schedules. C80 generalises this to all calls of the session API."
  },
  {
   "property": "C42",
   "status": "proved",
   "theorems": [
    "Verif.C42_isolation",
    "Verif.C42_isolation_live"
   ],
   "note": ""
  },
  {
   "property": "C43",
   "status": "proved",
   "theorems": [
    "Verif.Limb.C43_mul",
    "Verif.Limb.C43_square",
    "Verif.Limb.C43_square2",
    "Verif.Limb.C43_add",
    "Verif.Limb.C43_sub",
    "Verif.Limb.C43_neg",
    "Verif.Limb.C43_compose",
    "Verif.Limb.C43_constants",
    "Verif.Limb.C43_from_bytes",
    "Verif.Limb.C43_to_bytes",
    "Verif.Limb.C43_canonical",
    "Verif.Limb.C43_to_bytes_keeps_value",
    "Verif.Limb.C43_roundtrip",
    "Verif.Limb.C43_invert",
    "Verif.Limb.C43_invert_zero",
    "Verif.Limb.C43_pow22523",
    "Verif.Limb.C43_is_negative",
    "Verif.Limb.C43_is_nonzero",
    "Verif.Limb.C43_cmove"
   ],
   "note": "Every field operation (FeAdd, FeSub, FeNeg, FeMul, FeSquare, FeSquare2, FeFromBytes, FeToBytes, FeInvert, fePow22523, FeIsNegative, FeIsNonZero, FeCMove) is generated from the Go text by tools/go2lean.py as a limb program with 32/64-bit wrap-around; correctness and absence of overflow for all limbs within 1.65*2^26 (wider than documented). The overflow theorem for FeToBytes stops before the packing of limbs into bytes (intended truncation)."
  },
  {
   "property": "C44",
   "status": "proved",
   "theorems": [
    "Verif.Limb.C44_reduce",
    "Verif.Limb.C44_mul_add",
    "Verif.Limb.C44_no_overflow",
    "Verif.Limb.C44_top_bits"
   ],
   "note": "ScReduce and ScMulAdd, generated from the Go text; all 64- and 32-byte inputs. Overflow freedom up to the final packing into bytes (intended truncation)."
  },
  {
   "property": "C45",
   "status": "proved",
   "theorems": [
    "Verif.C45_base_multiple",
    "Verif.C45_sign",
    "Verif.C45_verify",
    "Verif.C45_verify_clears_bit",
    "Verif.C45_signatures_verify",
    "Verif.C45_sigLaw",
    "Verif.C45_created_pair",
    "Verif.C45_encoding_injective",
    "Verif.C45_unique",
    "Verif.C45_unclamped_false"
   ],
   "note": "For every GoLib obeying the stated laws of ed25519.Verify and X25519 base multiplication (SHA-512 arbitrary). All of edwards25519.go used by signing (field, scalars, the precomputed table of const.go, GeScalarMultBase, ToBytes) is modelled at limb level and proved against the curve's group. C45_unclamped_false: keys not clamped are outside the claim."
  },
  {
   "property": "C46",
   "status": "partial",
   "theorems": [
    "Verif.C46_plaintext_kept_partial",
    "Verif.C46_spare_capacity_false"
   ],
   "note": "False of the code: `append` in pad writes the padding into the caller's spare capacity (C46_spare_capacity_false, for every such slice). Proved: everything else is untouched, exact extent of the write (slices and memory modelled in Model/Buffers.lean)."
  },
  {
   "property": "C47",
   "status": "partial",
   "theorems": [
    "Verif.C47_session_message_kept_partial",
    "Verif.C47_group_message_exact",
    "Verif.C47_group_false"
   ],
   "note": "Proved for session messages (a copy is decrypted). False for group messages: DecryptCbc works in place and the object then holds the plaintext (C47_group_message_exact, C47_group_false)."
  },
  {
   "property": "C48",
   "status": "proved",
   "theorems": [
    "Verif.C48_splitThree",
    "Verif.C48_split",
    "Verif.C48_split_short_false",
    "Verif.C48_trim",
    "Verif.C48_sliceToArray"
   ],
   "note": "C48_split_short_false: Split panics on short input, SplitThree returns an error."
  },
  {
   "property": "C49",
   "status": "proved",
   "theorems": [
    "Verif.C49_only_other_positions",
    "Verif.C49_consumed_keys_gone"
   ],
   "note": "State level; hypotheses hold in every reachable state (WFChains invariant)."
  },
  {
   "property": "C50",
   "status": "partial",
   "theorems": [
    "Verif.C50_attribution_partial",
    "Verif.C50_preKey_false"
   ],
   "note": "Proved for ordinary messages; C50_preKey_false shows the prekey-message identity field is not authenticated on a known session."
  },
  {
   "property": "C51",
   "status": "proved",
   "theorems": [
    "Verif.C51_ratchet_key_fresh",
    "Verif.C51_record_keys_fresh",
    "Verif.C51_random_failure"
   ],
   "note": ""
  },
  {
   "property": "C52",
   "status": "partial",
   "theorems": [
    "Verif.C52_bundle_archives_partial",
    "Verif.C52_live_false"
   ],
   "note": "Proved for serialising stores; C52_live_false for stores that hand out the live object."
  },
  {
   "property": "C53",
   "status": "proved",
   "theorems": [
    "Verif.C53_saved_key_decrypts_again"
   ],
   "note": ""
  },
  {
   "property": "C54",
   "status": "proved",
   "theorems": [
    "Verif.C54_hkdf",
    "Verif.C54_chain",
    "Verif.C54_root",
    "Verif.C54_initiator",
    "Verif.C54_responder",
    "Verif.C54_group",
    "Verif.C54_send"
   ],
   "note": "Everything is a function of HMAC-SHA256, left arbitrary (its outputs are 32 bytes)."
  },
  {
   "property": "C55",
   "status": "proved",
   "theorems": [
    "Verif.C55_bundle",
    "Verif.C55_first_message",
    "Verif.C55_kept_by_decrypt",
    "Verif.C55_kept_by_encrypt"
   ],
   "note": "Initiator, responder, and preservation by later encryptions and decryptions in serialising stores."
  },
  {
   "property": "C56",
   "status": "proved",
   "theorems": [
    "Verif.C56_failed_group_operation"
   ],
   "note": "Serialising stores; the in-memory live store hands out the record itself, where a failed decryption does change it (see C38/C29 notes)."
  },
  {
   "property": "C57",
   "status": "proved",
   "theorems": [
    "Verif.C57_message",
    "Verif.C57_preKey_message",
    "Verif.C57_group_message",
    "Verif.C57_distribution_message"
   ],
   "note": "For well-formed bodies made of wire types 0, 1, 2 and 5 (groups, wire types 3 and 4, are modelled but not part of this statement)."
  },
  {
   "property": "C58",
   "status": "proved",
   "theorems": [
    "Verif.C58_unknown_preKey_changes_nothing",
    "Verif.C58_no_session"
   ],
   "note": "Both kinds of store; a missing signed prekey is a nil dereference (panic) in the code, counted as not decrypted."
  },
  {
   "property": "C59",
   "status": "proved",
   "theorems": [
    "Verif.C59_decode",
    "Verif.C59_decode_fails",
    "Verif.C59_encode",
    "Verif.C59_roundtrip",
    "Verif.C59_noncanonical_accepted",
    "Verif.C59_cached"
   ],
   "note": "The limb-level FromBytes, both ToBytes and ToCached are modelled and proved against the affine curve over GF(2^255-19); C59_noncanonical_accepted records that FromBytes accepts encodings ToBytes never produces."
  },
  {
   "property": "C60",
   "status": "proved",
   "theorems": [
    "Verif.C60_session_bytes",
    "Verif.C60_state_bytes",
    "Verif.C60_session_injective",
    "Verif.C60_sender_key_bytes",
    "Verif.C60_sender_key_state_bytes",
    "Verif.C60_preKey_bytes",
    "Verif.C60_signedPreKey_bytes",
    "Verif.C60_null_crashes"
   ],
   "note": "encoding/json and base64 are modelled (Model/Json); prekey public halves come back shifted (C22). C60_null_crashes: stored 'null' or '{}' panics."
  },
  {
   "property": "C61",
   "status": "proved",
   "theorems": [
    "Verif.C61_session_truncated",
    "Verif.C61_state_truncated",
    "Verif.C61_sender_key_truncated",
    "Verif.C61_sender_key_state_truncated",
    "Verif.C61_preKey_truncated",
    "Verif.C61_signedPreKey_truncated",
    "Verif.C61_message_truncated"
   ],
   "note": "Truncation only; other damage can be accepted (no checksum)."
  },
  {
   "property": "C62",
   "status": "proved",
   "theorems": [
    "Verif.C62_decodePoint",
    "Verif.C62_key_roundtrip",
    "Verif.C62_signal",
    "Verif.C62_signal_bytes",
    "Verif.C62_preKey",
    "Verif.C62_sender_key",
    "Verif.C62_distribution",
    "Verif.C62_versions",
    "Verif.C62_short_key_accepted"
   ],
   "note": "Short keys are zero-padded and accepted (C62_short_key_accepted)."
  },
  {
   "property": "C63",
   "status": "proved",
   "theorems": [
    "Verif.C63_bytes_only_store",
    "Verif.C63_same_sessions",
    "Verif.C63_conversation"
   ],
   "note": "Archived states may differ in the public half of a signed prekey that is never used to send (C22)."
  },
  {
   "property": "C64",
   "status": "partial",
   "theorems": [
    "Verif.C64_forward_secrecy",
    "Verif.C64_applies",
    "Verif.C64_stored",
    "Verif.C64_initialised",
    "Verif.C64_stored_archive",
    "Verif.C64_archived_false"
   ],
   "note": "Proved (symbolic attacker, free keyed hash) for every session state (C64_forward_secrecy), for stored sessions without archived states (C64_stored) and with archived states while the current state decrypts (C64_stored_archive). False when an archived state is promoted: it leaves a stale duplicate whose chain key yields the keys of messages already decrypted (C64_archived_false)."
  },
  {
   "property": "C65",
   "status": "proved",
   "theorems": [
    "Verif.C65_post_compromise"
   ],
   "note": "Symbolic attacker (free keyed hash); the DH output of the new ratchet step is the assumed secret."
  },
  {
   "property": "C66",
   "status": "proved",
   "theorems": [
    "Verif.C66_initiator",
    "Verif.C66_responder"
   ],
   "note": "Symbolic attacker; both roles. The no-one-time-prekey flow is covered as far as the code reaches it."
  },
  {
   "property": "C67",
   "status": "proved",
   "theorems": [
    "Verif.C67_group_forward_secrecy",
    "Verif.C67_applies",
    "Verif.C67_derived",
    "Verif.C67_from_nothing",
    "Verif.C67_repeated_distribution_false"
   ],
   "note": "Symbolic attacker. C67_repeated_distribution_false: processing the same distribution message again stores the old chain key once more, so the independence of distributed chain keys is needed."
  },
  {
   "property": "C68",
   "status": "partial",
   "theorems": [
    "Verif.C68_hostile_network",
    "Verif.C68_refused",
    "Verif.C68_first_use_false"
   ],
   "note": "C68_hostile_network: any schedule with injected bytes, either serializer; refusal = no StoreSession call (C68_refused). Injected prekey packets to Bob need that Bob accepts only Alice's key for her address; on first use the claim is false (C68_first_use_false): a refused forgery made of public data pins the forger's identity and locks Alice out."
  },
  {
   "property": "C69",
   "status": "partial",
   "theorems": [
    "Verif.C69_first_contact",
    "Verif.C69_rewrapped_false",
    "Verif.C69_rewrapped_concrete_false"
   ],
   "note": "Proved for first contact (C69_first_contact). False once a session exists (C69_rewrapped_false, general; C69_rewrapped_concrete_false): a genuine message rewrapped in another prekey part is accepted through the old session, yet the one-time prekey the wrapper names is removed and the worthless session kept."
  },
  {
   "property": "C70",
   "status": "partial",
   "theorems": [
    "Verif.C70_key_pairs_partial",
    "Verif.C70_bundle_partial",
    "Verif.C70_signature",
    "Verif.C70_group_chain_false",
    "Verif.C70_group_partial",
    "Verif.C70_ids"
   ],
   "note": "Key pairs, prekeys, sessions and group signing keys: proved. False for group chain keys (C70_group_chain_false: Create succeeds with an all-zero chain key, all messages readable by anyone) and ids (C70_ids: 0)."
  },
  {
   "property": "C71",
   "status": "proved",
   "theorems": [
    "Verif.C71_renewed_session"
   ],
   "note": "For schedules without rejected deliveries (the claim is about delivered messages within the limits); either serializer."
  },
  {
   "property": "C72",
   "status": "partial",
   "theorems": [
    "Verif.C72_recovers_partial",
    "Verif.C72_first_messages_partial",
    "Verif.C72_crossing_false"
   ],
   "note": "C72_first_messages_partial: both first messages always decrypt. C72_recovers_partial: if then one user answers (on the session the other set up) before the other speaks again, that session prevails and every later conversation goes as C03 specifies (assuming the other session does not accept the answer by accident). The rest is false (C72_crossing_false): when both keep talking at the same time, each message corrupts the session the other one uses, and after two rounds neither can read the other."
  },
  {
   "property": "C73",
   "status": "proved",
   "theorems": [
    "Verif.C73_group_bytes_only"
   ],
   "note": "JSON record serializer (the only one for records); either message serializer."
  },
  {
   "property": "C74",
   "status": "partial",
   "theorems": [
    "Verif.C74_live_partial",
    "Verif.C74_live_false"
   ],
   "note": "Proved up to the first call that panics or the first message that is validly signed by the sender and yet does not decrypt; after that the claim is false (C74_live_false: the in-memory record has already consumed the key)."
  },
  {
   "property": "C75",
   "status": "proved",
   "theorems": [
    "Verif.C75_group_crash_no_reuse",
    "Verif.C75_group_receiver_crash",
    "Verif.C75_decrypt_crash_frame"
   ],
   "note": "Serialising stores; fewer than 2^32 calls. The receiver part uses the hypotheses of C29."
  },
  {
   "property": "C76",
   "status": "partial",
   "theorems": [
    "Verif.C76_concurrent_false",
    "Verif.C76_with_mutex_partial"
   ],
   "note": "False of the code (C76_concurrent_false, for every sender key record). Proved for applications that hold a lock per call, all schedules. C82 generalises this to all group calls."
  },
  {
   "property": "C77",
   "status": "partial",
   "theorems": [
    "Verif.C77_in_memory_partial",
    "Verif.C77_replay_false",
    "Verif.C77_any_application_partial"
   ],
   "note": "Proved for every schedule the specification of C03 covers in which no turn opens with a message more than 5000 others of its turn precede; repeating a message of a turn no longer remembered breaks a session in the in-memory store (C77_replay_false). Also (C77_any_application_partial): any application, with any number of peers, whose calls all succeed with at most one session kept per peer gets the same answers from both kinds of store, with no assumption on the cryptography."
  },
  {
   "property": "C78",
   "status": "proved",
   "theorems": [
    "Verif.C78_group_conversation"
   ],
   "note": "Serialising stores; AES and signature laws; fewer than 2^32 messages per sender and group, at most 2000 distribution messages processed per sender and group; random source available. Receiving before processing a distribution message (nil record, panic: C30/C31 findings) and receiving one's own messages are outside the claim."
  },
  {
   "property": "C79",
   "status": "proved",
   "theorems": [
    "Verif.C79_other_conversations",
    "Verif.C79_shared_prekey_needed"
   ],
   "note": "C79_other_conversations; the condition on Bob's prekeys is needed (C79_shared_prekey_needed). Each user's random source is assumed to work and not to repeat."
  },
  {
   "property": "C80",
   "status": "proved",
   "theorems": [
    "Verif.C80_locks",
    "Verif.C80_one_lock",
    "Verif.C80_lock_per_peer",
    "Verif.C80_shared_prekey_needed"
   ],
   "note": "C80_lock_per_peer, C80_one_lock (instances of C80_locks). The condition on one-time prekeys is needed (C80_shared_prekey_needed: two goroutines spend the same prekey). Serialising stores whose single operations are atomic; every goroutine has its own random source."
  },
  {
   "property": "C81",
   "status": "proved",
   "theorems": [
    "Verif.C81_crashes"
   ],
   "note": "C81_crashes, for serialising stores whose single operations are atomic. Random numbers drawn by a call that was cut off are not drawn again."
  },
  {
   "property": "C82",
   "status": "proved",
   "theorems": [
    "Verif.C82_locks"
   ],
   "note": "C82_locks. Serialising store whose single operations are atomic. Without locks false: C76_concurrent_false."
  },
  {
   "property": "C83",
   "status": "partial",
   "theorems": [
    "Verif.C83_state_crashes_iff",
    "Verif.C83_sender_key_state_crashes_iff",
    "Verif.C83_session_record_partial",
    "Verif.C83_sender_key_record_partial",
    "Verif.C83_preKey_records",
    "Verif.C83_crash_false"
   ],
   "note": "The claim (an error, never a crash) is false: C83_crash_false gives bytes of each kind of record on which loading panics. Proved: exactly which bytes crash for session states and sender key states (iff), that records crash only through such a state and then never load, and that prekey records never crash."
  },
  {
   "property": "C84",
   "status": "partial",
   "theorems": [
    "Verif.C84_receiving_side_partial",
    "Verif.C84_absent_chain_false",
    "Verif.C84_remove_other_false",
    "Verif.C84_sending_side_partial",
    "Verif.C84_base_key_partial",
    "Verif.C84_base_key_erased_false",
    "Verif.C84_base_key_empty_false"
   ],
   "note": "Proved as a refinement over every history in which chains are added once, other calls name a present chain and only present keys are removed (what the session cipher does). Missing because false of the code: calls naming an absent chain crash instead of returning nil/false (C84_absent_chain_false), RemoveMessageKeys of an absent number removes and returns the oldest other key (C84_remove_other_false), SetSenderBaseKey of invalid bytes erases the key without an error (C84_base_key_erased_false) and of no bytes crashes (C84_base_key_empty_false)."
  },
  {
   "property": "C85",
   "status": "proved",
   "theorems": [
    "Verif.C85_accepted_was_sent"
   ],
   "note": "Symbolic attacker of Spec/Symbolic.lean who has also seen every tag made by the two sessions (HMAC as a free symbol, so its truncation to eight bytes is not an attack; ciphertexts count as public bytes). Identities must differ (reflection needs it). C85_accepted_was_sent: both histories are runs of the symbolic ratchet, and for all such runs the accepted messages with computable tags are messages the peer sent, with equal plaintext."
  },
  {
   "property": "C86",
   "status": "proved",
   "theorems": [
    "Verif.C86_own_text",
    "Verif.C86_session_record",
    "Verif.C86_session_state",
    "Verif.C86_sender_key_record",
    "Verif.C86_sender_key_state",
    "Verif.C86_preKey",
    "Verif.C86_signedPreKey",
    "Verif.C86_messages"
   ],
   "note": "Spec/JsonText.lean: RFC 8259 as a relation between documents and texts, and when one document says what another says (order, case of names, further members). Numbers must keep their digits (1e0 for 1 is refused by Go and by the model). Version numbers must be Go ints."
  },
  {
   "property": "C87",
   "status": "proved",
   "theorems": [
    "Verif.C87_not_json",
    "Verif.C87_not_object",
    "Verif.C87_too_deep",
    "Verif.C87_same_document",
    "Verif.C87_one_document"
   ],
   "note": "The scanner of Model/Json accepts exactly the texts of Spec/JsonText (scan_iff), so bytes that are not JSON are refused by all ten loaders; C87_same_document: only the document counts. The nesting limit of encoding/json (10000) is not modelled. null and objects can still crash the loaders (C83)."
  },
  {
   "property": "C88",
   "status": "partial",
   "theorems": [
    "Verif.C88_history_partial",
    "Verif.C88_silence_false",
    "Verif.C88_installed_first_partial",
    "Verif.C88_setup_lost_false",
    "Verif.C88_nil_setup_crash_false"
   ],
   "note": "Sequential histories proved exactly against a specification read off the history; any schedule proved when a logger is installed first. Missing because false of the code: an empty piece of the settings names every caller, so Configure(\"\") prints everything (C88_silence_false); without a lock ensureLogger can overwrite an installed logger (C88_setup_lost_false); Setup(nil) can crash a concurrent log call (C88_nil_setup_crash_false)."
  },
  {
   "property": "C89",
   "status": "partial",
   "theorems": [
    "Verif.C89_default_logger_partial",
    "Verif.C89_outcome",
    "Verif.C89_cipher_key_false",
    "Verif.C89_mac_false",
    "Verif.C89_state_false",
    "Verif.C89_distribution_false"
   ],
   "note": "Proved for the default logger: only eight fixed texts and errors are printed, rejected messages are, accepted ones are not. Missing because false of the code for a logger installed with Setup: every cipher key (C89_cipher_key_false), the correct MAC of a rejected forgery (C89_mac_false), serialized session states (C89_state_false) and group invitations (C89_distribution_false) are logged."
  },
  {
   "property": "C90",
   "status": "partial",
   "theorems": [
    "Verif.C90_answer_partial",
    "Verif.C90_at_most_once",
    "Verif.C90_buffer_reused_false"
   ],
   "note": "Exactly one answer, equal to the synchronous result, proved for every execution in which nobody writes the message's buffer between the call and its goroutine. Missing because false of the code: the goroutine reads the caller's slice later (C90_buffer_reused_false)."
  },
  {
   "property": "C91",
   "status": "partial",
   "theorems": [
    "Verif.C91_live_no_crash_partial",
    "Verif.C91_no_crash_partial",
    "Verif.C91_no_session_false",
    "Verif.C91_unknown_signed_prekey_false",
    "Verif.C91_jagged_false",
    "Verif.C91_failed_process_bundle_false"
   ],
   "note": "Proved for every history over a serialising store: ProcessBundle never crashes, Encrypt to a peer with a session succeeds, Decrypt/DecryptMessage of parsed bytes crash only in the listed cases; the same over a store that hands out the live object when the random source does not fail (C91_live_no_crash_partial). Missing because false of the code: Encrypt without a session (C91_no_session_false), unknown signed prekey (C91_unknown_signed_prekey_false), ciphertext of a ragged length under a valid MAC (C91_jagged_false), and, with a store handing out the live object, Encrypt after a failed ProcessBundle (C91_failed_process_bundle_false)."
  },
  {
   "property": "C92",
   "status": "proved",
   "theorems": [
    "Verif.C92_null_members",
    "Verif.C92_own_text"
   ],
   "note": "For the JSON serializer; the protobuf serializer has no null."
  },
  {
   "property": "C93",
   "status": "partial",
   "theorems": [
    "Verif.C93_group_no_crash_partial",
    "Verif.C93_live_no_crash_partial",
    "Verif.C93_no_record_false",
    "Verif.C93_jagged_false",
    "Verif.C93_process_encrypt_false"
   ],
   "note": "The code violates the claim in three ways (C93_*_false): no record under the name (nil pointer), a signed message whose ciphertext is no whole number of blocks, and, with a store that hands out its objects, encrypting under a name for which a distribution message was processed (nil private key). Outside these cases no call crashes, after any history."
  },
  {
   "property": "C94",
   "status": "partial",
   "theorems": [
    "Verif.C94_group_authentic_partial",
    "Verif.C94_overflow_false",
    "Verif.C94_wrap_false"
   ],
   "note": "Hypotheses: the receiver had no state with that key id under the name (C33_same_id_false shows why), no record reaches 2000 states and no iteration wraps (SafeRun), and no delivered message with that key id carries a signature that verifies but is over content the sender did not sign (Unforged). C94_overflow_false: without the record bound the claim is false - decrypting a message, processing the same distribution message 2000 more times and decrypting the message again succeeds (and 1999 times does not suffice). C94_wrap_false: at the 32-bit wrap-around the claim is false too - the message numbered 0 is taken for the one after 2^32-1 and decrypted with that one's key."
  },
  {
   "property": "C95",
   "status": "proved",
   "theorems": [
    "Verif.C95_group_crashes"
   ],
   "note": "For serialising stores; every call makes at most one StoreSenderKey, so a crash leaves the store before or after it. 'No message key used twice' is C75; here it shows as: messages sent after a crash are accepted by everyone who was invited."
  },
  {
   "property": "C96",
   "status": "partial",
   "theorems": [
    "Verif.C96_only_accepted_identities_partial",
    "Verif.C96_one_identity_partial",
    "Verif.C96_live_false"
   ],
   "note": "History-level strengthening of C11, C50 and C55: invariant over all lives (calls, store operations, crashes) of a user with a serialising store. That the trust answer is not asked again later is C12. Partial: proved for serialising stores; for a store that hands out the live object the claim is false, proved in C96_live_false (ProcessBundle overwrites a fresh record state but keeps the old receiving chains, so the owner of the old identity can still send messages that are accepted as authenticated with the new one)."
  },
  {
   "property": "C97",
   "status": "proved",
   "theorems": [
    "Verif.C97_sent_is_secret",
    "Verif.C97_accepted_was_sent"
   ],
   "note": "C85 and C66 lifted from one pair of sessions to whole lives of any number of users, by way of C96. Symbolic attacker of Spec/Symbolic.lean (free keyed hash; tags of all users given to him). That messages are not accepted twice is not claimed (C18_replay_false). Serialising stores; for stores handing out the live object see C96_live_false."
  },
  {
   "property": "C98",
   "status": "partial",
   "theorems": [
    "Verif.C98_no_key_reuse_partial",
    "Verif.C98_replay_reuse_false"
   ],
   "note": "Proved for every life in which no message is decrypted with an archived session. Otherwise the claim is false of the code, proved in C98_replay_reuse_false: after a message of an archived session made that session current, the record keeps a stale copy of it (C18); a replayed message is accepted by the copy, which becomes current with its old sending chain, and Encrypt then encrypts a different plaintext with the same message key, IV and counter."
  },
  {
   "property": "C99",
   "status": "partial",
   "theorems": [
    "Verif.C99_group_no_key_reuse_partial",
    "Verif.C99_overflow_false"
   ],
   "note": "C32 and C75 lifted to whole lives with any calls in between. Proved while fewer than 2000 distribution messages are processed under the name; with 2000 the claim is false of the code, for every cryptography and any two texts, proved in C99_overflow_false: the record drops its first state, the one in use, and an older copy of it takes its place."
  },
  {
   "property": "C100",
   "status": "proved",
   "theorems": [
    "Verif.C100_everything"
   ],
   "note": "C03, C68, C79 and C81 in one schedule. Conditions as there: made-up packets that make the library store a session are excluded (observable: their store operations), first contact is pinned if forged prekey packets reach Bob (C68_first_use_false shows this is needed), Bob keeps the two prekeys of the bundle (C79_shared_prekey_needed), serialising stores."
  },
  {
   "property": "C101",
   "status": "partial",
   "theorems": [
    "Verif.C101_keys_used_once_partial",
    "Verif.C101_accepted_once_partial",
    "Verif.C101_replay_false"
   ],
   "note": "Proved for lives in which, between the two uses, the session is not deleted or replaced and no message is decrypted with an archived session. The unconditional claim is false (C101_replay_false: the same message is accepted by two consecutive calls after an archived session was promoted). Keys are compared as terms over the session's secrets; C101_accepted_once_partial reduces a second acceptance to an explicit 8-byte tag coincidence under two different keys."
  },
  {
   "property": "C102",
   "status": "proved",
   "theorems": [
    "Verif.C102_installation",
    "Verif.C102_fresh_users_talk",
    "Verif.C102_install_succeeds",
    "Verif.C102_reloaded_bundle_false"
   ],
   "note": "For the records returned by the generating calls. A bundle made of records that were saved and read back is a different matter (C22): C102_reloaded_bundle_false shows the signed prekey being refused and the one-time prekey leading to a session its owner rejects."
  },
  {
   "property": "C103",
   "status": "proved",
   "theorems": [
    "Verif.C103_one_message",
    "Verif.C103_nonce",
    "Verif.C103_deterministic",
    "Verif.C103_key_alias_false",
    "Verif.C103_weak_key_false"
   ],
   "note": "SHA-512 is a parameter: the theorems give two different inputs whose digests agree modulo the group order. Scope: generated keys. C103_weak_key_false: the all-zero public key is accepted and half of all messages verify with a signature anyone can make. C103_key_alias_false: flipping the top bit of a public key gives another key that accepts the same signatures."
  },
  {
   "property": "C104",
   "status": "partial",
   "theorems": [
    "Verif.C104_matching_partial",
    "Verif.C104_mixed_effect",
    "Verif.C104_isolation_partial",
    "Verif.C104_from_session_false",
    "Verif.C104_from_session_otherwise",
    "Verif.C104_from_session_example",
    "Verif.C104_other_builder_false",
    "Verif.C104_group",
    "Verif.C104_group_no_builder_false"
   ],
   "note": "True for a builder made for the cipher's address (C104_matching_partial); the effect for any other builder is given exactly (C104_mixed_effect), with what holds for all ciphers (C104_isolation_partial). The claim is false of the code: NewCipherFromSession leaves the builder nil and DecryptMessage panics (C104_from_session_false); a builder for another address has the trust decision made and the identity saved for that address (C104_other_builder_false); NewGroupCipher with a nil builder panics on Encrypt (C104_group_no_builder_false)."
  },
  {
   "property": "C105",
   "status": "proved",
   "theorems": [
    "Verif.C105_groups_over_sessions"
   ],
   "note": "Joint refinement of C03 and C78: the processing of a distribution message is triggered by the decryption of the session message that carries it."
  },
  {
   "property": "C106",
   "status": "proved",
   "theorems": [
    "Verif.Limb.C106_scalar_mult_steps",
    "Verif.C106_sign_value",
    "Verif.C106_sign_steps",
    "Verif.C106_equal_value",
    "Verif.C106_equal_steps",
    "Verif.C106_mac_value",
    "Verif.C106_mac_steps"
   ],
   "note": "Observer model (Spec/Steps): statements, array indices, outcomes of conditions, lengths given to library functions. Integer operations are taken to need a time independent of their operands, SHA-512, HMAC and copy one that depends on lengths only. C106_sign_value and C106_mac_value tie the instrumented functions to the ones all other theorems are about."
  },
  {
   "property": "C107",
   "status": "proved",
   "theorems": [
    "Verif.C107_decrypt_value",
    "Verif.C107_decrypt_work",
    "Verif.C107_prekey_value",
    "Verif.C107_prekey_work",
    "Verif.C107_group_value",
    "Verif.C107_group_work",
    "Verif.C107_encrypt_value",
    "Verif.C107_encrypt_work",
    "Verif.C107_forgery_work"
   ],
   "note": "Receiving and sending are modelled again with a step for each call of a primitive (Model/Work); C107_decrypt_value, C107_prekey_value, C107_group_value and C107_encrypt_value prove that they return what the model of the other claims returns, C107_decrypt_work, C107_prekey_work, C107_group_work and C107_encrypt_work bound the steps, C107_forgery_work proves how much a forged message costs. A call is one step whatever the length of its input; parsing, comparing and storing are not counted."
  },
  {
   "property": "C108",
   "status": "proved",
   "theorems": [
    "Verif.C108_agreement",
    "Verif.C108_shared",
    "Verif.C108_dhLaw",
    "Verif.C108_sigLaw",
    "Verif.C108_never_zero",
    "Verif.C108_distinct",
    "Verif.C108_fresh_users_talk",
    "Verif.C108_groups",
    "Verif.C108_groups_over_sessions",
    "Verif.C108_everything",
    "Verif.C108_small_order_false",
    "Verif.C108_no_contribution_false",
    "Verif.C108_public_session_false"
   ],
   "note": "Proved for generated public keys. For public keys of small order, which a peer may send, C108_small_order_false, C108_no_contribution_false and C108_public_session_false prove that the secret is all zero whatever our key is (the library does not look at the result), and that what is then sent in such a session can be decrypted by everybody."
  },
  {
   "property": "C109",
   "status": "partial",
   "theorems": [
    "Verif.C109_same_text_iff",
    "Verif.C109_compare_partial",
    "Verif.C109_tail_ignored_false",
    "Verif.C109_key_as_fingerprint_false",
    "Verif.C109_modulo_false",
    "Verif.C109_scan_false",
    "Verif.C109_same_owner_partial"
   ],
   "note": "False in general: only the first 30 bytes are shown, in groups modulo 100000; a serialised identity key used as fingerprint hides its last three bytes; Scan is always empty. Proved: exact condition for equal texts, and the comparison for every generator (the application's: the library has only its interface) that shows different users as different numbers."
  }
 ]
}