{
 "claims": [
  {
   "property": "C01",
   "status": "proved",
   "theorems": [
    "DIDComm.C01_plaintext_roundtrip",
    "DIDComm.C01_no_prior"
   ],
   "note": "Hypotheses: the message is well-formed (Message.WF) and its extra headers do not imitate an envelope; the counterexamples without them are findings (f) and (g) in DESIGN.md."
  },
  {
   "property": "C02",
   "status": "proved",
   "theorems": [
    "DIDComm.C02_signed_roundtrip"
   ],
   "note": "For every Crypto record with the laws of Crypto.Lawful; key ids must not need JSON escapes (WireParty)."
  },
  {
   "property": "C03",
   "status": "proved",
   "theorems": [
    "DIDComm.C03_anoncrypt_roundtrip"
   ],
   "note": "For every Crypto record with the laws of Crypto.Lawful, for messages not wrapped in a forward (C08 covers those); the receiver may hold any nonempty subset of the recipient secrets (Opens)."
  },
  {
   "property": "C04",
   "status": "proved",
   "theorems": [
    "DIDComm.C04_authcrypt_roundtrip"
   ],
   "note": "For every Crypto record with the laws of Crypto.Lawful, for messages not wrapped in a forward (C08 covers those); the receiver may hold any nonempty subset of the recipient secrets (Opens)."
  },
  {
   "property": "C05",
   "status": "proved",
   "theorems": [
    "DIDComm.C05_protect_sender_roundtrip"
   ],
   "note": "For every Crypto record with the laws of Crypto.Lawful, for messages not wrapped in a forward (C08 covers those); the receiver may hold any nonempty subset of the recipient secrets (Opens)."
  },
  {
   "property": "C06",
   "status": "proved",
   "theorems": [
    "DIDComm.C06_sign_anoncrypt_roundtrip",
    "DIDComm.C06_sign_authcrypt_roundtrip"
   ],
   "note": "For every Crypto record with the laws of Crypto.Lawful, for messages not wrapped in a forward (C08 covers those); the receiver may hold any nonempty subset of the recipient secrets (Opens)."
  },
  {
   "property": "C07",
   "status": "proved",
   "theorems": [
    "DIDComm.C07_from_prior_roundtrip"
   ],
   "note": "For every Crypto record with the laws of Crypto.Lawful."
  },
  {
   "property": "C08",
   "status": "proved",
   "theorems": [
    "DIDComm.C08_each_hop",
    "DIDComm.C08_end_to_end"
   ],
   "note": "C08_each_hop for any routing keys and payload; C08_end_to_end for pack_encrypted with a recipient behind mediators. Header names must be ordinary (HeadersOk). A mediator that itself owns the next key and leaves the unwrap option on unwraps that layer too (that is C09)."
  },
  {
   "property": "C09",
   "status": "proved",
   "theorems": [
    "DIDComm.C09_unwrapped",
    "DIDComm.C09_option_off"
   ],
   "note": "For any number of layers and any payload the receiver can unpack. The metadata is that of the payload except for the fields named in reWrapped; that the forward layer overwrites encrypted_to_kids of an authcrypt payload is finding (j) in DESIGN.md."
  },
  {
   "property": "C10",
   "status": "proved",
   "theorems": [
    "DIDComm.C10_sender"
   ],
   "note": "Evidence is stated with the primitives of the abstract crypto record: AuthOpens contains the ECDH-1PU derivation with exactly the resolved key, key unwrapping and authenticated decryption."
  },
  {
   "property": "C11",
   "status": "proved",
   "theorems": [
    "DIDComm.C11_signer",
    "DIDComm.C11_reported"
   ],
   "note": "Holds for every text and every answer of the resolvers."
  },
  {
   "property": "C12",
   "status": "proved",
   "theorems": [
    "DIDComm.C12_consistent"
   ],
   "note": ""
  },
  {
   "property": "C13",
   "status": "proved",
   "theorems": [
    "DIDComm.C13_from_prior"
   ],
   "note": ""
  },
  {
   "property": "C14",
   "status": "partial",
   "theorems": [
    "DIDComm.C14_any_issuer",
    "DIDComm.C14_not_checked",
    "DIDComm.C14_honest_partial"
   ],
   "note": "False of the code (C14_any_issuer for every holder of an authentication key, C14_not_checked with a full run). C14_honest_partial: it holds for from_prior made by FromPrior::pack and a message made by pack_plaintext, since the packing side checks both. C107_issuer gives the binding of the claims to the DID of the reported issuer key when its owner uses the key with this library only."
  },
  {
   "property": "C15",
   "status": "proved",
   "theorems": [
    "DIDComm.C15_issue"
   ],
   "note": ""
  },
  {
   "property": "C16",
   "status": "partial",
   "theorems": [
    "DIDComm.C16_signed_for_another",
    "DIDComm.C16_not_checked",
    "DIDComm.C16_absent",
    "DIDComm.C16_packed_partial"
   ],
   "note": "False of the code (C16_not_checked, C16_absent, C16_signed_for_another). C16_packed_partial: for a message from pack_encrypted with `from` the from header is that DID, since the packing side checks it; sign_by is not checked by packing either."
  },
  {
   "property": "C17",
   "status": "proved",
   "theorems": [
    "DIDComm.C17_plaintext"
   ],
   "note": ""
  },
  {
   "property": "C18",
   "status": "proved",
   "theorems": [
    "DIDComm.C18_one_did"
   ],
   "note": ""
  },
  {
   "property": "C19",
   "status": "proved",
   "theorems": [
    "DIDComm.C19_mismatch",
    "DIDComm.C19_sender",
    "DIDComm.C19_anonymous"
   ],
   "note": ""
  },
  {
   "property": "C20",
   "status": "proved",
   "theorems": [
    "DIDComm.C20_apv",
    "DIDComm.C20_order",
    "DIDComm.C20_binding",
    "DIDComm.C20_dots"
   ],
   "note": "C20_dots shows that the restriction to key ids without dots is needed."
  },
  {
   "property": "C21",
   "status": "proved",
   "theorems": [
    "DIDComm.C21_one_signature"
   ],
   "note": ""
  },
  {
   "property": "C22",
   "status": "proved",
   "theorems": [
    "DIDComm.C22_algorithm",
    "DIDComm.C22_unknown",
    "DIDComm.C22_mismatch"
   ],
   "note": ""
  },
  {
   "property": "C23",
   "status": "proved",
   "theorems": [
    "DIDComm.C23_anon",
    "DIDComm.C23_auth",
    "DIDComm.C23_unknown_enc",
    "DIDComm.C23_auth_enc",
    "DIDComm.C23_unknown_alg"
   ],
   "note": "An unknown alg is not rejected as Unsupported by the code: the text is then tried as signed and plaintext message (C23_unknown_alg)."
  },
  {
   "property": "C24",
   "status": "proved",
   "theorems": [
    "DIDComm.C24_all_anon",
    "DIDComm.C24_first_anon",
    "DIDComm.C24_auth",
    "DIDComm.C24_one_secret_per_search"
   ],
   "note": ""
  },
  {
   "property": "C25",
   "status": "proved",
   "theorems": [
    "DIDComm.C25_ends",
    "DIDComm.C25_no_limit",
    "DIDComm.C25_questions"
   ],
   "note": ""
  },
  {
   "property": "C26",
   "status": "proved",
   "theorems": [
    "DIDComm.C26_unpack",
    "DIDComm.C26_short"
   ],
   "note": "Panics are explicit outcomes of the model. Termination is C25. C26_short shows that the exception is reachable."
  },
  {
   "property": "C27",
   "status": "proved",
   "theorems": [
    "DIDComm.C27_secret",
    "DIDComm.C27_public",
    "DIDComm.C27_multicodec"
   ],
   "note": "C27_secret is an equivalence: the defect (short secrets panic) and its absence from 32 bytes on."
  },
  {
   "property": "C28",
   "status": "proved",
   "theorems": [
    "DIDComm.C28_plaintext",
    "DIDComm.C28_signed",
    "DIDComm.C28_encrypted",
    "DIDComm.C28_anonymous",
    "DIDComm.C28_from_prior_pack",
    "DIDComm.C28_from_prior_unpack",
    "DIDComm.C28_wrap",
    "DIDComm.C28_wrap_empty",
    "DIDComm.C28_short"
   ],
   "note": "pack_plaintext, FromPrior::unpack and anonymous packing without any condition."
  },
  {
   "property": "C29",
   "status": "proved",
   "theorems": [
    "DIDComm.C29_plaintext",
    "DIDComm.C29_signed",
    "DIDComm.C29_encrypted",
    "DIDComm.C29_wrap",
    "DIDComm.C29_from_prior_pack",
    "DIDComm.C29_from_prior_unpack",
    "DIDComm.C29_unpack",
    "DIDComm.C29_masked"
   ],
   "note": "C29_masked is a concrete run in which the kind is masked."
  },
  {
   "property": "C30",
   "status": "proved",
   "theorems": [
    "DIDComm.C30_pack_encrypted",
    "DIDComm.C30_pack_signed"
   ],
   "note": ""
  },
  {
   "property": "C31",
   "status": "proved",
   "theorems": [
    "DIDComm.C31_addressing"
   ],
   "note": ""
  },
  {
   "property": "C32",
   "status": "proved",
   "theorems": [
    "DIDComm.C32_unpack_asks",
    "DIDComm.C32_unencrypted",
    "DIDComm.C32_pack_asks",
    "DIDComm.C32_signed_asks",
    "DIDComm.C32_from_prior_asks",
    "DIDComm.C32_anonymous",
    "DIDComm.C32_plaintext",
    "DIDComm.C32_wrap",
    "DIDComm.C32_from_prior_unpack"
   ],
   "note": "UnpackAsks and PackAsks list every question that may be asked after a given history."
  },
  {
   "property": "C33",
   "status": "proved",
   "theorems": [
    "DIDComm.C33_signing_key"
   ],
   "note": "PackSignedMetadata has no sign_by_did; a dishonest find_secrets may name any key id, hence the HonestFind hypothesis."
  },
  {
   "property": "C34",
   "status": "proved",
   "theorems": [
    "DIDComm.C34_recipients",
    "DIDComm.C34_failures"
   ],
   "note": ""
  },
  {
   "property": "C35",
   "status": "proved",
   "theorems": [
    "DIDComm.C35_negotiation",
    "DIDComm.C35_incompatible"
   ],
   "note": ""
  },
  {
   "property": "C36",
   "status": "proved",
   "theorems": [
    "DIDComm.C36_wire",
    "DIDComm.C36_recipient_did",
    "DIDComm.C36_recipient_is_to"
   ],
   "note": ""
  },
  {
   "property": "C37",
   "status": "proved",
   "theorems": [
    "DIDComm.C37_chain",
    "DIDComm.C37_recursive"
   ],
   "note": ""
  },
  {
   "property": "C38",
   "status": "proved",
   "theorems": [
    "DIDComm.C38_selection",
    "DIDComm.C38_spec"
   ],
   "note": ""
  },
  {
   "property": "C39",
   "status": "proved",
   "theorems": [
    "DIDComm.C39_forwarding"
   ],
   "note": ""
  },
  {
   "property": "C40",
   "status": "proved",
   "theorems": [
    "DIDComm.C40_no_forward"
   ],
   "note": ""
  },
  {
   "property": "C41",
   "status": "proved",
   "theorems": [
    "DIDComm.C41_inverse",
    "DIDComm.C41_only",
    "DIDComm.C41_written"
   ],
   "note": ""
  },
  {
   "property": "C42",
   "status": "proved",
   "theorems": [
    "DIDComm.C42_sealed",
    "DIDComm.C42_tampering",
    "DIDComm.C42_boundary"
   ],
   "note": "C42_tampering: for every envelope sealed under ideal primitives, every accepted envelope with its wrapped keys agrees in header, iv and ciphertext||tag. C42_sealed: everything pack_encrypted returns is so sealed with a fresh content key. C42_boundary: the split between ciphertext and tag is not protected in anoncrypt (finding n)."
  },
  {
   "property": "C43",
   "status": "proved",
   "theorems": [
    "DIDComm.C43_decode_encode",
    "DIDComm.C43_alphabet",
    "DIDComm.C43_canonical",
    "DIDComm.C43_exact",
    "DIDComm.C43_unpadded_unique",
    "DIDComm.C43_base64url"
   ],
   "note": ""
  },
  {
   "property": "C44",
   "status": "proved",
   "theorems": [
    "DIDComm.C44_decodes",
    "DIDComm.C44_wrong_codec",
    "DIDComm.C44_not_base58btc",
    "DIDComm.C44_accepted",
    "DIDComm.C44_canonical",
    "DIDComm.C44_refused",
    "DIDComm.C44_noncanonical",
    "DIDComm.C44_base58btc"
   ],
   "note": "C44_accepted characterises acceptance for every text; C44_canonical gives the key and the uniqueness of its text for canonical prefixes; C44_refused classifies every refusal; C44_noncanonical shows what the code does with a non-canonical prefix."
  },
  {
   "property": "C45",
   "status": "proved",
   "theorems": [
    "DIDComm.C45_x25519_public",
    "DIDComm.C45_ed25519_public",
    "DIDComm.C45_ed25519_secret",
    "DIDComm.C45_x25519_secret"
   ],
   "note": ""
  },
  {
   "property": "C46",
   "status": "proved",
   "theorems": [
    "DIDComm.C46_no_fragment",
    "DIDComm.C46_fragment",
    "DIDComm.C46_cases",
    "DIDComm.C46_is_did"
   ],
   "note": ""
  },
  {
   "property": "C47",
   "status": "proved",
   "theorems": [
    "DIDComm.C47_method",
    "DIDComm.C47_secret",
    "DIDComm.C47_unsupported"
   ],
   "note": ""
  },
  {
   "property": "C48",
   "status": "proved",
   "theorems": [
    "DIDComm.C48_content"
   ],
   "note": "Two-run statement: same resolvers and draws; the results are byte-identical if content encryption returns the same, whatever message and signer."
  },
  {
   "property": "C49",
   "status": "proved",
   "theorems": [
    "DIDComm.C49_sender",
    "DIDComm.C49_key_type_shows"
   ],
   "note": "Two-run statement; the recipient keys must be the same, because the sender's key type decides them: C49_key_type_shows exhibits that leak (finding p). Absence of skid and apu is in C50_envelope and C36_wire."
  },
  {
   "property": "C50",
   "status": "proved",
   "theorems": [
    "DIDComm.C50_envelope",
    "DIDComm.C50_forwarded",
    "DIDComm.C50_signed"
   ],
   "note": "C50_envelope (not forwarded), C50_forwarded (outermost layer when forwarded), C50_signed."
  },
  {
   "property": "C51",
   "status": "proved",
   "theorems": [
    "DIDComm.C51_message_builder"
   ],
   "note": ""
  },
  {
   "property": "C52",
   "status": "proved",
   "theorems": [
    "DIDComm.C52_attachment_builder",
    "DIDComm.C52_attachment_start",
    "DIDComm.C52_from_prior_builder"
   ],
   "note": ""
  },
  {
   "property": "C53",
   "status": "proved",
   "theorems": [
    "DIDComm.C53_resolve",
    "DIDComm.C53_get_secret",
    "DIDComm.C53_find_secrets",
    "DIDComm.C53_consistent",
    "DIDComm.C53_uniffi",
    "DIDComm.C53_uniffi_delivered"
   ],
   "note": ""
  },
  {
   "property": "C54",
   "status": "proved",
   "theorems": [
    "DIDComm.C54_preserved",
    "DIDComm.C54_read",
    "DIDComm.C54_collision_not_preserved",
    "DIDComm.C54_collision_rejected",
    "DIDComm.C54_collision_moved"
   ],
   "note": ""
  },
  {
   "property": "C55",
   "status": "partial",
   "theorems": [
    "DIDComm.C55_mimicry",
    "DIDComm.C55_ordinary_partial"
   ],
   "note": "False in general (C55_mimicry). C55_ordinary_partial: true for every message whose extra headers do not have all members of an envelope."
  },
  {
   "property": "C56",
   "status": "proved",
   "theorems": [
    "DIDComm.C56_integers",
    "DIDComm.C56_round_trip",
    "DIDComm.C56_too_deep",
    "DIDComm.C56_deep_body"
   ],
   "note": ""
  },
  {
   "property": "C57",
   "status": "proved",
   "theorems": [
    "DIDComm.C57_recipient",
    "DIDComm.C57_signer",
    "DIDComm.C57_sender",
    "DIDComm.C57_issuer"
   ],
   "note": "A negative property: the four theorems show that such key ids pack and cannot be unpacked."
  },
  {
   "property": "C58",
   "status": "proved",
   "theorems": [
    "DIDComm.C58_function",
    "DIDComm.C58_env"
   ],
   "note": "Programs are deterministic trees of questions by construction of the model; the content is that unpack draws no randomness."
  },
  {
   "property": "C59",
   "status": "proved",
   "theorems": [
    "DIDComm.C59_first",
    "DIDComm.C59_delivered",
    "DIDComm.C59_no_effect",
    "DIDComm.C59_dropped",
    "DIDComm.C59_waits"
   ],
   "note": "Callback modelled as a state machine with take/send split (the lock is released in between), polling and drops; all interleavings."
  },
  {
   "property": "C60",
   "status": "proved",
   "theorems": [
    "DIDComm.C60_filter",
    "DIDComm.C60_answer",
    "DIDComm.C60_uniffi",
    "DIDComm.C60_wasm",
    "DIDComm.C60_error_names",
    "DIDComm.C60_names_differ"
   ],
   "note": "C60_error_names is exact: only SecretNotFound is lost on the way through JavaScript (finding m)."
  },
  {
   "property": "C61",
   "status": "proved",
   "theorems": [
    "DIDComm.C61_plaintext",
    "DIDComm.C61_signed",
    "DIDComm.C61_encrypted",
    "DIDComm.C61_from_prior_pack",
    "DIDComm.C61_from_prior_unpack",
    "DIDComm.C61_unpack",
    "DIDComm.C61_wrap",
    "DIDComm.C61_silent",
    "DIDComm.C61_honest",
    "DIDComm.C61_kinds",
    "DIDComm.C61_no_io"
   ],
   "note": "Silent cases are real: C61_wrap, C61_silent (finding q). Unpack needs the hypotheses of C25."
  },
  {
   "property": "C62",
   "status": "proved",
   "theorems": [
    "DIDComm.C62_plaintext",
    "DIDComm.C62_signed",
    "DIDComm.C62_encrypted",
    "DIDComm.C62_anonymous",
    "DIDComm.C62_wrap",
    "DIDComm.C62_from_prior_pack",
    "DIDComm.C62_from_prior_unpack",
    "DIDComm.C62_unpack",
    "DIDComm.C62_never",
    "DIDComm.C62_occur_reading",
    "DIDComm.C62_occur_secrets"
   ],
   "note": "Upper bounds for every operation; C62_occur_reading and C62_occur_secrets show that each kind occurs without a failing resolver, so the sets are exact."
  },
  {
   "property": "C63",
   "status": "proved",
   "theorems": [
    "DIDComm.C63_plaintext",
    "DIDComm.C63_signed",
    "DIDComm.C63_encrypted",
    "DIDComm.C63_wrap",
    "DIDComm.C63_from_prior_pack",
    "DIDComm.C63_from_prior_unpack",
    "DIDComm.C63_unpack"
   ],
   "note": "Both directions, for every operation."
  },
  {
   "property": "C64",
   "status": "proved",
   "theorems": [
    "DIDComm.C64_pack_options",
    "DIDComm.C64_unpack_options",
    "DIDComm.C64_pack_empty",
    "DIDComm.C64_unpack_empty",
    "DIDComm.C64_header_pairs",
    "DIDComm.C64_unknown_algorithm"
   ],
   "note": "Positive part in full; the difference of the unpack default (finding u) and the refused header pairs (finding v) are C64_unpack_empty and C64_header_pairs."
  },
  {
   "property": "C65",
   "status": "proved",
   "theorems": [
    "DIDComm.C65_round_trip",
    "DIDComm.C65_writable"
   ],
   "note": "Round trip and exactly when writing fails."
  },
  {
   "property": "C66",
   "status": "proved",
   "theorems": [
    "DIDComm.C66_round_trip"
   ],
   "note": "Round trip."
  },
  {
   "property": "C67",
   "status": "proved",
   "theorems": [
    "DIDComm.C67_unknown_service",
    "DIDComm.C67_unknown_method",
    "DIDComm.C67_endpoint",
    "DIDComm.C67_public_key",
    "DIDComm.C67_private_key"
   ],
   "note": "The unreadable documents are finding w."
  },
  {
   "property": "C68",
   "status": "proved",
   "theorems": [
    "DIDComm.C68_unpack_metadata",
    "DIDComm.C68_pack_metadata"
   ],
   "note": "Injectivity of the printed JSON; JavaScript's loss of precision beyond 2^53 is outside the model."
  },
  {
   "property": "C69",
   "status": "proved",
   "theorems": [
    "DIDComm.C69_unpack",
    "DIDComm.C69_pack_encrypted",
    "DIDComm.C69_read",
    "DIDComm.C69_bad_options",
    "DIDComm.C69_bad_pack_options",
    "DIDComm.C69_wrap"
   ],
   "note": "Unpack and pack: equivalence of runs; wrap: equality of programs."
  },
  {
   "property": "C70",
   "status": "proved",
   "theorems": [
    "DIDComm.C70_reading",
    "DIDComm.C70_plaintext",
    "DIDComm.C70_signed",
    "DIDComm.C70_encrypted"
   ],
   "note": "Equivalences for FromPrior::unpack and pack_plaintext; the embedded check for the other packers."
  },
  {
   "property": "C71",
   "status": "proved",
   "theorems": [
    "DIDComm.C71_encrypted",
    "DIDComm.C71_signed",
    "DIDComm.C71_plaintext",
    "DIDComm.C71_wrap",
    "DIDComm.C71_issue",
    "DIDComm.C71_bare",
    "DIDComm.C71_url_looked_up"
   ],
   "note": "C71_url_looked_up shows that the exception occurs (finding x)."
  },
  {
   "property": "C72",
   "status": "proved",
   "theorems": [
    "DIDComm.C72_reads_json",
    "DIDComm.C72_one_content",
    "DIDComm.C72_refuses",
    "DIDComm.C72_cut",
    "DIDComm.C72_cut_numbers",
    "DIDComm.C72_cut_number_example",
    "DIDComm.C72_unpack_json",
    "DIDComm.C72_unpack_cut",
    "DIDComm.C72_encrypted_cut",
    "DIDComm.C72_signed_cut",
    "DIDComm.C72_plaintext_cut",
    "DIDComm.C72_noticed",
    "DIDComm.C72_unpack_noticed"
   ],
   "note": "JsonText in Spec/Grammar is the grammar of RFC 8259, written as inductive predicates without reference to the parser. C72_cut and C72_cut_numbers: what serde_json notices before the end of a cut text. C72_cut_number_example shows that the condition on numbers is needed."
  },
  {
   "property": "C73",
   "status": "proved",
   "theorems": [
    "DIDComm.C73_reads",
    "DIDComm.C73_accepts",
    "DIDComm.C73_unpacked",
    "DIDComm.C73_packed"
   ],
   "note": "Extra headers are a HashMap; the theorem fixes them as a set of members with distinct keys, not their order. Reading a number as a double is a parameter."
  },
  {
   "property": "C74",
   "status": "proved",
   "theorems": [
    "DIDComm.C74_encrypted",
    "DIDComm.C74_signed",
    "DIDComm.C74_claims",
    "DIDComm.C74_headers",
    "DIDComm.C74_refused",
    "DIDComm.C74_plain"
   ],
   "note": ""
  },
  {
   "property": "C75",
   "status": "proved",
   "theorems": [
    "DIDComm.C75_document",
    "DIDComm.C75_secret",
    "DIDComm.C75_answers"
   ],
   "note": "Equivalence of the modelled serde decoders with a declarative meaning relation (Spec/ReadingDocs) over the JSON grammar of C72."
  },
  {
   "property": "C76",
   "status": "proved",
   "theorems": [
    "DIDComm.C76_unpack_options",
    "DIDComm.C76_pack_options"
   ],
   "note": "The header map of PackEncryptedOptions is compared up to order, as the code's HashMap has none."
  },
  {
   "property": "C77",
   "status": "proved",
   "theorems": [
    "DIDComm.C77_packed",
    "DIDComm.C77_wrapped",
    "DIDComm.C77_own_key"
   ],
   "note": "C77_own_key assumes that different draws give different content keys (the draw is the seed of the key)."
  },
  {
   "property": "C78",
   "status": "proved",
   "theorems": [
    "DIDComm.C78_method",
    "DIDComm.C78_method_total",
    "DIDComm.C78_secret",
    "DIDComm.C78_secret_total",
    "DIDComm.C78_type",
    "DIDComm.C78_use"
   ],
   "note": ""
  },
  {
   "property": "C79",
   "status": "proved",
   "theorems": [
    "DIDComm.C79_prior_read",
    "DIDComm.C79_prior_issued",
    "DIDComm.C79_plaintext",
    "DIDComm.C79_signed",
    "DIDComm.C79_encrypted",
    "DIDComm.C79_wrapped",
    "DIDComm.C79_determined",
    "DIDComm.C79_encrypted_exact",
    "DIDComm.C79_signed_exact"
   ],
   "note": "Spec/Outcome gives the lists as inductive relations over documents, secrets and arguments, without mentioning the programs. C79_prior_read/_prior_issued/_plaintext/_signed/_encrypted/_wrapped: every run is in its list. C79_determined: each list has one result when the library refuses nothing (Willing). C79_encrypted_exact, C79_signed_exact: then a result is in the list iff every run ends with it. TextEnv says that key ids are UTF-8, as Rust strings are. Examples derive the outcome of all runs from single reasons."
  },
  {
   "property": "C80",
   "status": "proved",
   "theorems": [
    "DIDComm.C80_anonymous",
    "DIDComm.C80_wrapped",
    "DIDComm.C80_forwarded",
    "DIDComm.C80_authenticated",
    "DIDComm.C80_signed",
    "DIDComm.C80_message_irrelevant"
   ],
   "note": "C80_anonymous, C80_forwarded, C80_authenticated, C80_signed, C80_wrapped, C80_message_irrelevant; each with an instance for all runs in the small world."
  },
  {
   "property": "C81",
   "status": "proved",
   "theorems": [
    "DIDComm.C81_unpack",
    "DIDComm.C81_exact",
    "DIDComm.C81_determined",
    "DIDComm.C81_one_way"
   ],
   "note": "Spec/OutcomeUnpack gives the list as inductive relations over the text, documents and secrets, one constructor per reason. C81_unpack: every run is in it. C81_exact: a result is in it iff every run ends with it. C81_one_way: there is exactly one. C81_determined: two runs agree. NeverLonger and PrintsFloats are only needed for termination (C25)."
  },
  {
   "property": "C82",
   "status": "proved",
   "theorems": [
    "DIDComm.C82_anon_layer",
    "DIDComm.C82_auth_layer",
    "DIDComm.C82_sign_layer",
    "DIDComm.C82_accepted"
   ],
   "note": "Converse of the evidence theorems C10-C24: Arrives is stated with the same relations AnonOpens, AuthOpens, SignedBy. C82_anon_layer, C82_auth_layer, C82_sign_layer for one layer; C82_accepted for whole texts, by induction over the layers. The example opens an envelope for two keys."
  },
  {
   "property": "C83",
   "status": "proved",
   "theorems": [
    "DIDComm.C83_packs_signed",
    "DIDComm.C83_packs_prior",
    "DIDComm.C83_signed_reading",
    "DIDComm.C83_signed",
    "DIDComm.C83_prior"
   ],
   "note": "Ideal signatures are a hypothesis of the theorems (OnlySigned), not an axiom. Messages must be well formed in the sense of Spec/Values.lean for the returned message to equal the packed one; C83_signed_reading does without."
  },
  {
   "property": "C84",
   "status": "proved",
   "theorems": [
    "DIDComm.C84_message_is_no_prior",
    "DIDComm.C84_prior_is_no_message"
   ],
   "note": "No assumption on the primitives. The separation rests on two members only: a JWS header names no kid, and the claims have no id; the header type of a signed message is not checked on unpacking."
  },
  {
   "property": "C85",
   "status": "proved",
   "theorems": [
    "DIDComm.C85_packs",
    "DIDComm.C85_authenticated"
   ],
   "note": "Ideal authenticated encryption is a hypothesis (OnlyEncrypted), not an axiom. Messages whose extra headers imitate an envelope are excluded (NotEnvelope); for those the payload of the inner imitation would be taken."
  },
  {
   "property": "C86",
   "status": "proved",
   "theorems": [
    "DIDComm.C86_message",
    "DIDComm.C86_message_accepts",
    "DIDComm.C86_message_refuses",
    "DIDComm.C86_value",
    "DIDComm.C86_value_tells",
    "DIDComm.C86_packed",
    "DIDComm.C86_claims",
    "DIDComm.C86_claims_value",
    "DIDComm.C86_forward",
    "DIDComm.C86_no_forward",
    "DIDComm.C86_signed",
    "DIDComm.C86_signed_metadata",
    "DIDComm.C86_json",
    "DIDComm.C86_json_back"
   ],
   "note": "JSON.stringify and JSON.parse on the JavaScript side are not modelled: integers beyond 2^53 are rounded by JavaScript itself."
  },
  {
   "property": "C87",
   "status": "proved",
   "theorems": [
    "DIDComm.C87_content",
    "DIDComm.C87_times"
   ],
   "note": "For messages in envelopes the round trips C02 to C07 hold whatever the times and the content."
  },
  {
   "property": "C88",
   "status": "proved",
   "theorems": [
    "DIDComm.C88_questions",
    "DIDComm.C88_exact",
    "DIDComm.C88_few",
    "DIDComm.C88_for_others",
    "DIDComm.C88_sender_first",
    "DIDComm.C88_target",
    "DIDComm.C88_anybody_chooses"
   ],
   "note": "C88_exact gives the list of questions for every text; C88_anybody_chooses is a finding: the resolver is asked for a DID chosen by an anonymous sender."
  },
  {
   "property": "C89",
   "status": "proved",
   "theorems": [
    "DIDComm.C89_prior_read",
    "DIDComm.C89_prior_issued",
    "DIDComm.C89_plaintext",
    "DIDComm.C89_signed",
    "DIDComm.C89_wrapped",
    "DIDComm.C89_encrypted",
    "DIDComm.C89_encrypted_exact",
    "DIDComm.C89_wrapped_exact",
    "DIDComm.C89_illegal",
    "DIDComm.C89_anonymous",
    "DIDComm.C89_success",
    "DIDComm.C89_documents",
    "DIDComm.C89_content",
    "DIDComm.C89_few"
   ],
   "note": "C89_encrypted holds for any primitives; C89_encrypted_exact and C89_content need primitives that refuse nothing (Willing), since a refusal ends the packing early."
  },
  {
   "property": "C90",
   "status": "proved",
   "theorems": [
    "DIDComm.C90_separate",
    "DIDComm.C90_possible",
    "DIDComm.C90_operation",
    "DIDComm.C90_once",
    "DIDComm.C90_runs",
    "DIDComm.C90_waits",
    "DIDComm.C90_can_end",
    "DIDComm.C90_late",
    "DIDComm.C90_twice",
    "DIDComm.C90_faithful",
    "DIDComm.C90_realised",
    "DIDComm.C90_unchanged"
   ],
   "note": "The executor is assumed to have a thread for every task that can go on; operations of all result types are covered, since a task is any program of the core."
  },
  {
   "property": "C91",
   "status": "proved",
   "theorems": [
    "DIDComm.C91_begins",
    "DIDComm.C91_anywhere",
    "DIDComm.C91_unpack",
    "DIDComm.C91_pack",
    "DIDComm.C91_documents",
    "DIDComm.C91_uniffi",
    "DIDComm.C91_uniffi_pack",
    "DIDComm.C91_uniffi_unpack"
   ],
   "note": ""
  },
  {
   "property": "C92",
   "status": "proved",
   "theorems": [
    "DIDComm.C92_plaintext",
    "DIDComm.C92_signed",
    "DIDComm.C92_encrypted",
    "DIDComm.C92_from_prior",
    "DIDComm.C92_document",
    "DIDComm.C92_secret",
    "DIDComm.C92_becomes_envelope",
    "DIDComm.C92_drift"
   ],
   "note": ""
  },
  {
   "property": "C93",
   "status": "proved",
   "theorems": [
    "DIDComm.C93_evidence",
    "DIDComm.C93_own_signatures",
    "DIDComm.C93_two_faces"
   ],
   "note": ""
  },
  {
   "property": "C94",
   "status": "proved",
   "theorems": [
    "DIDComm.C94_env",
    "DIDComm.C94_nonsense",
    "DIDComm.C94_same",
    "DIDComm.C94_operations",
    "DIDComm.C94_roundTrip",
    "DIDComm.C94_lost"
   ],
   "note": "C94_lost is a witness for the exception.  C94_nonsense: answers that cannot be understood."
  },
  {
   "property": "C95",
   "status": "proved",
   "theorems": [
    "DIDComm.C95_operation",
    "DIDComm.C95_separate",
    "DIDComm.C95_once",
    "DIDComm.C95_waits",
    "DIDComm.C95_runs",
    "DIDComm.C95_answers",
    "DIDComm.C95_realised",
    "DIDComm.C95_late",
    "DIDComm.C95_calls"
   ],
   "note": "C95_late is a witness that options are read late."
  },
  {
   "property": "C96",
   "status": "proved",
   "theorems": [
    "DIDComm.C96_forged",
    "DIDComm.C96_same",
    "DIDComm.C96_protected"
   ],
   "note": "C96_forged: the made-up envelope is accepted, with no assumption on private keys of the sender; C96_same: the sender's envelopes are among those the receiver can make, text for text; C96_protected: the same under protect_sender.  The forging algorithm is the small definition forged in Spec/Deniable.lean.  The key agreement of both sides is related by the law ecdh1pu_agree of the primitives."
  },
  {
   "property": "C97",
   "status": "proved",
   "theorems": [
    "DIDComm.C97_size",
    "DIDComm.C97_same",
    "DIDComm.C97_operation",
    "DIDComm.C97_threads",
    "DIDComm.C97_woken",
    "DIDComm.C97_kept",
    "DIDComm.C97_progress",
    "DIDComm.C97_alone",
    "DIDComm.C97_quiet",
    "DIDComm.C97_all_end",
    "DIDComm.C97_exhausted",
    "DIDComm.C97_exhaustible",
    "DIDComm.C97_dead",
    "DIDComm.C97_killed"
   ],
   "note": "C97_all_end is the liveness theorem; its fairness hypothesis Goes is only that the binding is not idle for ever while it could always act.  C97_same and C97_operation carry C90 over; C97_woken: no lost and no spurious wake-ups; C97_progress and C97_alone: what every operation is waiting for when nothing can be done; C97_exhausted with C97_exhaustible and C97_dead with C97_killed: the two exceptions.  The behaviour of the thread pool (any order of the queue; a panic ends the thread) is that of the futures crate, which is not in /repo; foreign code does not panic."
  },
  {
   "property": "C98",
   "status": "proved",
   "theorems": [
    "DIDComm.C98_meant",
    "DIDComm.C98_sent_on",
    "DIDComm.C98_unnoticed",
    "DIDComm.C98_redirected",
    "DIDComm.C98_relabelled"
   ],
   "note": "Authenticated encryption idealised by OnlyPackedFor over a history of library operations; redirection and relabelling proved to be possible (C98_sent_on, C98_unnoticed, C98_redirected, C98_relabelled)."
  },
  {
   "property": "C99",
   "status": "proved",
   "theorems": [
    "DIDComm.C99_ends",
    "DIDComm.C99_nested",
    "DIDComm.C99_deadlock"
   ],
   "note": "Weak fairness per operation (IsRun); no assumption on other operations.  That one operation's panic leaves others running is a property of wasm-bindgen-futures, which is not in /repo; the model assumes it."
  },
  {
   "property": "C100",
   "status": "proved",
   "theorems": [
    "DIDComm.C100_uniffi",
    "DIDComm.C100_js",
    "DIDComm.C100_js_bad",
    "DIDComm.C100_between"
   ],
   "note": "Panicking operations tell nothing (C53, C97).  The error messages are not modelled.  The immediate return value of the uniffi calls, always ErrorCode::Success, is not modelled."
  },
  {
   "property": "C101",
   "status": "proved",
   "theorems": [
    "DIDComm.C101_same",
    "DIDComm.C101_all_keys",
    "DIDComm.C101_two_faced"
   ],
   "note": "The condition on the cipher (CommitsTo) is an assumption about askar-crypto; it is needed only for the layers the text has. The negative theorem uses toy primitives that satisfy the correctness laws."
  },
  {
   "property": "C102",
   "status": "proved",
   "theorems": [
    "DIDComm.C102_encrypted",
    "DIDComm.C102_same",
    "DIDComm.C102_told",
    "DIDComm.C102_signed",
    "DIDComm.C102_wrapped"
   ],
   "note": "Sizes is an assumption about the crates: keys, nonces, tags, signatures and UUIDs have fixed lengths and the length of a ciphertext depends on that of the content only."
  },
  {
   "property": "C103",
   "status": "proved",
   "theorems": [
    "DIDComm.C103_wrapped",
    "DIDComm.C103_packed"
   ],
   "note": "The cipher is idealised as in C48 and C49: what is not told apart gives the same ciphertext, so the length is hidden too; for a cipher that keeps lengths C102 gives the size. The hypothesis is only about the content key of the envelope for k, so the mediators before it may open theirs."
  },
  {
   "property": "C104",
   "status": "proved",
   "theorems": [
    "DIDComm.C104_stages",
    "DIDComm.C104_by_hand"
   ],
   "note": "The services found are those of C37 and C38; the route is routeOf of Spec/Route.lean. By hand a caller must also take forward headers, service id and algorithm from the same options."
  },
  {
   "property": "C105",
   "status": "proved",
   "theorems": [
    "DIDComm.C105_encrypted",
    "DIDComm.C105_within",
    "DIDComm.C105_wrapped",
    "DIDComm.C105_signed",
    "DIDComm.C105_prior",
    "DIDComm.C105_tells"
   ],
   "note": "Signatures are modelled as functions of key and text (the code calls deterministic EdDSA and RFC 6979 ECDSA of the crypto crate). That the nonces differ is a hypothesis about the values drawn in these two calls. The same message means also that its extra headers, which the code keeps in a hash map, are iterated in the same order, as they are for one object; in another order the signed text differs, with the same length and the same meaning."
  },
  {
   "property": "C106",
   "status": "proved",
   "theorems": [
    "DIDComm.C106_journey",
    "DIDComm.C106_plaintext",
    "DIDComm.C106_signed",
    "DIDComm.C106_prior"
   ],
   "note": "C106_journey is the way through mediators; conditions as for C03\u2013C06 and C08: the cryptography is lawful, identifiers in the documents fit on the wire, mediators hold the secrets of their keys. C106_plaintext, C106_signed and C106_prior are the other ways of packing."
  },
  {
   "property": "C107",
   "status": "proved",
   "theorems": [
    "DIDComm.C107_taken_over",
    "DIDComm.C107_issuer"
   ],
   "note": "C107_taken_over is about any run of unpack that reports a signed message. C107_issuer assumes ideal signatures (OnlyIssued): what verifies was signed for a message or for a successful packing of claims with the key id it reported."
  },
  {
   "property": "C108",
   "status": "proved",
   "theorems": [
    "DIDComm.C108_first_only",
    "DIDComm.C108_each_device",
    "DIDComm.C108_more_can_hurt"
   ],
   "note": "C108_more_can_hurt is the negative part, with a run of each receiver. C108_each_device asks that forwards inside the text which the receiver unwraps are also seen as its own by the device."
  },
  {
   "property": "C109",
   "status": "proved",
   "theorems": [
    "DIDComm.C109_same",
    "DIDComm.C109_kept",
    "DIDComm.C109_sender_gone",
    "DIDComm.C109_signer_gone",
    "DIDComm.C109_issuer_gone",
    "DIDComm.C109_never_reported",
    "DIDComm.C109_never_used"
   ],
   "note": "The receiver's secrets are the same before and after (C108 is about other secrets), and whether the receiver has a key for the DID of a forward's next stop does not change."
  },
  {
   "property": "C110",
   "status": "proved",
   "theorems": [
    "DIDComm.C110_same",
    "DIDComm.C110_signed",
    "DIDComm.C110_issued",
    "DIDComm.C110_anonymous",
    "DIDComm.C110_authenticated",
    "DIDComm.C110_unpublished",
    "DIDComm.C110_other_type"
   ],
   "note": "The random draws are the same in both runs. For messages with a from_prior and for forwarding the first theorem applies; the finer ones are for messages without."
  },
  {
   "property": "C111",
   "status": "proved",
   "theorems": [
    "DIDComm.C111_unpack",
    "DIDComm.C111_prior_unpack",
    "DIDComm.C111_plaintext",
    "DIDComm.C111_signed",
    "DIDComm.C111_prior",
    "DIDComm.C111_encrypted",
    "DIDComm.C111_forward"
   ],
   "note": "Reading key material from documents and secrets, the hash and the reading of numbers are not exchanged. Texts in memory and side channels are outside the model."
  },
  {
   "property": "C112",
   "status": "proved",
   "theorems": [
    "DIDComm.C112_signed",
    "DIDComm.C112_same_message",
    "DIDComm.C112_prior",
    "DIDComm.C112_signs_only",
    "DIDComm.C112_signs",
    "DIDComm.C112_signs_prior",
    "DIDComm.C112_replay",
    "DIDComm.C112_every_prior",
    "DIDComm.C112_prior_alone"
   ],
   "note": "That a call has signed a text is defined from the code: the call could not have happened if that text could not be signed with that key; likewise for relying on a signature. Signatures made with the same keys outside the library count as forgeries here: C83 and C85 are stated for sets of texts instead."
  },
  {
   "property": "C113",
   "status": "proved",
   "theorems": [
    "DIDComm.C113_order",
    "DIDComm.C113_white_space",
    "DIDComm.C113_encrypted",
    "DIDComm.C113_signed",
    "DIDComm.C113_longer"
   ],
   "note": "`Alike` (Spec/Layout) compares contents; `SameOutcome` compares results. Needs the hypotheses of C25 because the model bounds the unwrapping loop by the length of the text. The order of the extra headers is that of the model's list for a HashMap."
  },
  {
   "property": "C114",
   "status": "proved",
   "theorems": [
    "DIDComm.C114_encrypted",
    "DIDComm.C114_signed",
    "DIDComm.C114_exact",
    "DIDComm.C114_unpacked",
    "DIDComm.C114_journey",
    "DIDComm.C114_healed",
    "DIDComm.C114_repeated"
   ],
   "note": "The journey needs what C08 needs of keys and mediators, doubles that are read back as they are printed, and at most 123 levels of nesting. `C114_healed` is the converse's negation."
  },
  {
   "property": "C115",
   "status": "proved",
   "theorems": [
    "DIDComm.C115_document",
    "DIDComm.C115_secret",
    "DIDComm.C115_answers",
    "DIDComm.C115_unpack_options",
    "DIDComm.C115_pack_options",
    "DIDComm.C115_pack",
    "DIDComm.C115_message",
    "DIDComm.C115_resolvers",
    "DIDComm.C115_wrapping",
    "DIDComm.C115_not_envelopes"
   ],
   "note": ""
  },
  {
   "property": "C116",
   "status": "proved",
   "theorems": [
    "DIDComm.C116_sent",
    "DIDComm.C116_wraps_only",
    "DIDComm.C116_relies"
   ],
   "note": "That a call has wrapped, or relied on, a content key is said by exchanging the primitives: the call could not have happened if wrapping, or unwrapping, this content key under this derived key were impossible. The laws assumed are in Spec/HistoryAuth.lean."
  },
  {
   "property": "C117",
   "status": "proved",
   "theorems": [
    "DIDComm.C117_direct",
    "DIDComm.C117_wrapped",
    "DIDComm.C117_forwarded",
    "DIDComm.C117_through",
    "DIDComm.C117_outsider"
   ],
   "note": "The laws are the converse of those of the round trips and are stated for the ephemeral key that is written into the envelope, since whoever chose an ephemeral key can also open what was made with it. Key ids are assumed to need no escaping in JSON. Altered envelopes are the subject of C42 and C116. Toy primitives that satisfy all laws are given beside the theorems."
  },
  {
   "property": "C118",
   "status": "proved",
   "theorems": [
    "DIDComm.C118_no_secrets",
    "DIDComm.C118_listed_only",
    "DIDComm.C118_fewer",
    "DIDComm.C118_more_can_hurt"
   ],
   "note": ""
  },
  {
   "property": "C119",
   "status": "proved",
   "theorems": [
    "DIDComm.C119_order",
    "DIDComm.C119_other_orders",
    "DIDComm.C119_signature_innermost",
    "DIDComm.C119_signed_envelope",
    "DIDComm.C119_inside_auth",
    "DIDComm.C119_inside_anon"
   ],
   "note": ""
  }
 ]
}