{"id": "C01", "title": "Plaintext pack/unpack round trip", "statement": "If pack_plaintext succeeds for a well-formed message, then unpack of the returned text, with any resolvers that answer the from_prior check consistently, returns exactly that message, with every trust flag in the metadata false and every optional metadata field empty (except the from_prior fields when the message carries a from_prior JWT).", "quantifier": "every well-formed Message (arbitrary body, attachments, extra headers, header subset), every resolver behaviour, both unpack options", "why_tests_cant": "The message space is infinite: arbitrary JSON bodies, escapes, numbers, optional header combinations.", "anchors": ["src/message/pack_plaintext.rs: Message::pack_plaintext", "src/message/unpack/mod.rs: Message::unpack", "src/message/unpack/plaintext.rs: _try_unpack_plaintext", "src/message/message.rs: Message, from_str"]}
{"id": "C02", "title": "Signed pack/unpack round trip", "statement": "If pack_signed succeeds and the signer's DID document and secret hold the two halves of the same key, unpack returns the original message with authenticated and non_repudiation true, encrypted false, sign_from equal to the sign_by_kid reported by pack_signed, sign_alg determined by the key type, and signed_message equal to the packed text.", "quantifier": "every well-formed message, every signing DID or key id, every key type, all resolver states consistent with the key pairing", "why_tests_cant": "All messages, keys and document layouts; also depends on JSON/base64 inverse laws for all byte strings.", "anchors": ["src/message/pack_signed.rs: Message::pack_signed", "src/jws/sign.rs: sign", "src/jws/verify.rs: verify", "src/message/unpack/sign.rs: _try_unpack_sign"]}
{"id": "C03", "title": "Anonymous encryption round trip", "statement": "If pack_encrypted without `from` and without forwarding succeeds, a recipient holding the secret of any of the reported to_kids unpacks exactly the original message; the metadata says encrypted, anonymous_sender, not authenticated, encrypted_to_kids equals the reported to_kids and enc_alg_anon equals the requested algorithm.", "quantifier": "every well-formed message, every recipient DID document, every content-encryption algorithm, every nonempty subset of recipient secrets, every random seed", "why_tests_cant": "Quantifies over documents with arbitrarily many keys, all messages and all randomness.", "anchors": ["src/message/pack_encrypted/anoncrypt.rs: anoncrypt", "src/jwe/encrypt.rs: encrypt", "src/jwe/decrypt.rs: decrypt", "src/message/unpack/anoncrypt.rs: _try_unpack_anoncrypt"]}
{"id": "C04", "title": "Authenticated encryption round trip", "statement": "If pack_encrypted with `from` (protect_sender off, no forwarding) succeeds, any recipient key holder unpacks exactly the original message and the metadata says encrypted, authenticated, not anonymous_sender, encrypted_from_kid equals the reported from_kid and encrypted_to_kids equals the reported to_kids.", "quantifier": "every well-formed message, every sender/recipient document pair, every subset of recipient secrets, every random seed", "why_tests_cant": "As for C03, plus the sender/recipient key negotiation over arbitrary documents.", "anchors": ["src/message/pack_encrypted/authcrypt.rs: authcrypt", "src/jwe/encrypt.rs: encrypt", "src/jwe/decrypt.rs: decrypt", "src/message/unpack/authcrypt.rs: _try_unpack_authcrypt"]}
{"id": "C05", "title": "Sender-protected encryption round trip", "statement": "With protect_sender on, the doubly encrypted message unpacks to the original message and the metadata reports both anonymous_sender and authenticated, both algorithms, the sender key id and the recipient key ids.", "quantifier": "every well-formed message, document pair, algorithm choice, recipient secret subset, seed", "why_tests_cant": "Nested envelopes over all messages and documents.", "anchors": ["src/message/pack_encrypted/authcrypt.rs: authcrypt", "src/message/unpack/mod.rs: Message::unpack"]}
{"id": "C06", "title": "Sign-then-encrypt round trip", "statement": "When sign_by is given to pack_encrypted, unpack additionally reports non_repudiation, sign_from and the exact inner JWS in signed_message, and still returns the original message, for both anonymous and authenticated encryption.", "quantifier": "every well-formed message, every combination of signer, sender, recipient and options", "why_tests_cant": "Combination space is unbounded in messages and documents.", "anchors": ["src/message/pack_encrypted/mod.rs: pack_encrypted", "src/message/unpack/mod.rs: Message::unpack", "src/message/pack_signed.rs: pack_signed"]}
{"id": "C07", "title": "from_prior JWT round trip", "statement": "If FromPrior::pack succeeds, FromPrior::unpack of the result returns the same FromPrior value and the same issuer key id that pack reported.", "quantifier": "every FromPrior value (all optional claims), every issuer key id choice, every consistent key pair", "why_tests_cant": "All claim values and strings, all keys.", "anchors": ["src/message/from_prior/pack.rs: FromPrior::pack", "src/message/from_prior/unpack.rs: FromPrior::unpack"]}
{"id": "C08", "title": "Forward onion delivers the payload hop by hop", "statement": "wrap_in_forward over a nonempty list of routing keys produces a message such that each mediator in order, holding only its own key, unpacks a forward whose `next` is the following hop and whose attachment is the message for that hop; after the last mediator, `next` is the final recipient and the attachment is the original JSON payload.", "quantifier": "every list length, every mediator key set, every JSON payload, every forward header set, every seed", "why_tests_cant": "Induction over the number of mediators; no test covers every list length.", "anchors": ["src/protocols/routing/mod.rs: wrap_in_forward, build_forward_message, generate_next_hops, try_parse_forward"]}
{"id": "C09", "title": "Messages re-wrapped in forwards are unwrapped automatically", "statement": "If the recipient receives its encrypted message wrapped in any number of forward layers addressed to one of its own keyAgreement keys or its DID, unpack with unwrap_re_wrapping_forward returns the innermost message with re_wrapped_in_forward true; with the option off it returns the outer forward message itself.", "quantifier": "every nesting count, every payload message, every recipient key set", "why_tests_cant": "Unbounded nesting of forward layers.", "anchors": ["src/message/unpack/mod.rs: unpack, _try_unwrap_forwarded_message, has_key_agreement_secret"]}
{"id": "C10", "title": "Authenticated-encryption claims have evidence", "statement": "Whenever unpack succeeds and reports encrypted_from_kid = k, the resolver returned a document for the DID part of k whose keyAgreement lists k with a verification method for k, and an ECDH-1PU key derived with exactly that public key unwrapped the content key and authenticated the ciphertext that contained the returned message.", "quantifier": "every input text, every (possibly adversarial, changing) resolver behaviour, every option set", "why_tests_cant": "Must hold for every adversarial input text and every resolver history.", "anchors": ["src/message/unpack/authcrypt.rs: _try_unpack_authcrypt", "src/jwe/decrypt.rs: decrypt"]}
{"id": "C11", "title": "Signature claims have evidence", "statement": "Whenever unpack succeeds and reports non_repudiation, sign_from = k and signed_message = t, then t is a JWS with exactly one signature, whose key id is k in the unprotected header, the resolver returned a document for the DID part of k listing k under authentication, and that key's signature check over protected-header + '.' + payload succeeded; the returned message is what parses out of that payload (possibly via further layers).", "quantifier": "every input text, every resolver behaviour, every option set", "why_tests_cant": "Adversarial inputs; a test can only show sample forgeries fail.", "anchors": ["src/message/unpack/sign.rs: _try_unpack_sign", "src/jws/verify.rs: verify"]}
{"id": "C12", "title": "Metadata flags are mutually consistent", "statement": "On every successful unpack: authenticated holds iff encrypted_from_kid or sign_from is present; non_repudiation iff sign_from iff sign_alg iff signed_message is present; encrypted iff encrypted_to_kids is present iff an encryption algorithm is reported; anonymous_sender iff enc_alg_anon is present; enc_alg_auth iff encrypted_from_kid; re_wrapped_in_forward only if the option was on and the message was encrypted; from_prior and from_prior_issuer_kid are present iff the message has a from_prior header.", "quantifier": "every input text, every resolver behaviour, every option set", "why_tests_cant": "A relation over all executions including nested forward loops.", "anchors": ["src/message/unpack/mod.rs: UnpackMetadata, unpack", "src/message/unpack/anoncrypt.rs", "src/message/unpack/authcrypt.rs", "src/message/unpack/sign.rs"]}
{"id": "C13", "title": "from_prior claims have evidence", "statement": "Whenever unpack succeeds for a message carrying from_prior, the metadata contains the FromPrior claims decoded from that JWT, the JWT's compact header kid is from_prior_issuer_kid, and the JWT's signature verified under the key with that id listed under authentication in a document the resolver returned for the DID part of the kid.", "quantifier": "every input text, every resolver behaviour", "why_tests_cant": "Adversarial JWTs and resolver histories.", "anchors": ["src/message/from_prior/unpack.rs: FromPrior::unpack", "src/message/unpack/mod.rs: unpack"]}
{"id": "C14", "title": "from_prior issuer and subject binding on unpack", "statement": "A from_prior accepted by unpack was issued by the DID named in iss (iss equals the DID part of the signing key id) and its sub equals the message's from.", "quantifier": "every input text, every resolver behaviour", "why_tests_cant": "Security relation between two DIDs over all inputs.", "anchors": ["src/message/from_prior/unpack.rs: FromPrior::unpack", "src/message/from_prior/pack.rs: validate_pack"]}
{"id": "C15", "title": "from_prior issuer binding on pack", "statement": "FromPrior::pack succeeds only if iss and sub are DIDs without fragments, iss differs from sub, the issuer key id (if given) has iss as DID part and a fragment, and the signing key is listed under authentication in the document resolved for iss; the emitted JWT header names that key.", "quantifier": "every FromPrior value, every issuer kid argument, every resolver behaviour", "why_tests_cant": "All argument combinations and resolver histories.", "anchors": ["src/message/from_prior/pack.rs: FromPrior::pack, validate_pack"]}
{"id": "C16", "title": "Reported sender matches the message's from header", "statement": "A message that unpack reports as authenticated carries a from header whose DID is the DID of encrypted_from_kid (and of sign_from when signed).", "quantifier": "every input text, every resolver behaviour", "why_tests_cant": "Addressing-consistency over all adversarial inputs.", "anchors": ["src/message/unpack/mod.rs: unpack", "src/message/unpack/authcrypt.rs", "src/message/unpack/sign.rs"]}
{"id": "C17", "title": "Only DIDComm plaintext is ever returned", "statement": "Every message returned by unpack has typ equal to application/didcomm-plain+json, and its id, type and body come from the innermost JSON text that was parsed.", "quantifier": "every input text, every resolver behaviour", "why_tests_cant": "All inputs.", "anchors": ["src/message/message.rs: validate", "src/message/unpack/plaintext.rs"]}
{"id": "C18", "title": "Recipients of an accepted encrypted message all belong to one DID", "statement": "Whenever unpack succeeds with encrypted_to_kids = ks, ks is nonempty and every key id in ks is a DID URL with a fragment and all of them have the same DID part.", "quantifier": "every input text, every resolver behaviour", "why_tests_cant": "All recipient lists of all lengths.", "anchors": ["src/message/unpack/anoncrypt.rs", "src/message/unpack/authcrypt.rs"]}
{"id": "C19", "title": "Sender key id binding in JWE headers", "statement": "Of envelopes with alg ECDH-1PU+A256KW or ECDH-ES+A256KW: an accepted authcrypt envelope has an apu that decodes to the sender key id used, and a skid header (if present) equal to it; an accepted anoncrypt envelope has neither; an envelope whose skid differs from its apu is rejected, with no resolver called.", "quantifier": "every envelope text, every resolver behaviour", "why_tests_cant": "All header combinations.", "anchors": ["src/jwe/decrypt.rs: decrypt", "src/jwe/parse.rs: verify_didcomm", "src/message/unpack/authcrypt.rs"]}
{"id": "C20", "title": "APV binds the recipient list", "statement": "Any encrypted envelope that unpack accepts has an apv equal to the SHA-256 of the dot-joined sorted recipient key ids; the check does not depend on the order of recipients; and for key ids without dots, two accepted envelopes with the same protected header have the same multiset of recipient key ids unless SHA-256 collides.", "quantifier": "every envelope, every recipient list and permutation of it", "why_tests_cant": "All lists and permutations.", "anchors": ["src/jwe/parse.rs: verify_didcomm", "src/jwe/encrypt.rs: encrypt"]}
{"id": "C21", "title": "Exactly one signature is accepted", "statement": "unpack never reports a signature for a text that reads as a JWS (and not as a JWE) with zero signatures or with two or more signatures, whichever of them are valid.", "quantifier": "every JWS text with any number of signatures, every resolver behaviour", "why_tests_cant": "Unbounded signature lists.", "anchors": ["src/message/unpack/sign.rs: _try_unpack_sign", "src/jws/parse.rs: ParsedJWS::verify"]}
{"id": "C22", "title": "No signature algorithm confusion", "statement": "A reported sign_alg always equals the algorithm in the protected header and matches the key type of the verification method that verified it (EdDSA with Ed25519, ES256 with P-256, ES256K with K-256); a mismatch of key type is an error; an unknown algorithm is rejected as Unsupported once the signer's document lists the key id, without any key being used.", "quantifier": "every JWS text, every document, every key type", "why_tests_cant": "All combinations of header algorithm and key type over all inputs.", "anchors": ["src/message/unpack/sign.rs: _try_unpack_sign", "src/utils/crypto.rs: AsKnownKeyPair", "src/jws/envelope.rs: Algorithm::sig_type"]}
{"id": "C23", "title": "No encryption algorithm confusion", "statement": "A message is reported as authcrypt only if its header says ECDH-1PU+A256KW with A256CBC-HS512, and as anoncrypt only if it says ECDH-ES+A256KW with the reported content algorithm. With one of these alg values and any other enc, decryption is refused as Unsupported (after the secret was fetched, before it is used). A text with any other alg is not treated as encrypted.", "quantifier": "every JWE text, every resolver behaviour", "why_tests_cant": "All header values.", "anchors": ["src/message/unpack/anoncrypt.rs", "src/message/unpack/authcrypt.rs", "src/jwe/envelope.rs: Algorithm, EncAlgorithm"]}
{"id": "C24", "title": "expect_decrypt_by_all_keys means all keys", "statement": "With expect_decrypt_by_all_keys, unpack succeeds only if every recipient key id for which the secrets resolver reported a secret decrypted the message, and the result is the payload of the last one; without it, exactly the first reported key is used and no other secret is read.", "quantifier": "every envelope, every list of found secrets", "why_tests_cant": "Unbounded key lists.", "anchors": ["src/message/unpack/anoncrypt.rs: loop over to_kids_found", "src/message/unpack/authcrypt.rs: loop over to_kids_found"]}
{"id": "C25", "title": "Unpack terminates on every input", "statement": "unpack terminates for every input text and every answering resolver, provided decryption never returns more bytes than the ciphertext and tag have and doubles are printed as JSON numbers (of any length): every loop iteration that continues works on a JSON text with fewer bytes in its strings, so the number of iterations is at most the input length plus one. The number of questions to the resolvers is linear in the input length.", "quantifier": "every input text, every resolver behaviour", "why_tests_cant": "Liveness over unbounded nesting of forward envelopes.", "anchors": ["src/message/unpack/mod.rs: unpack loop", "src/message/unpack/mod.rs: _try_unwrap_forwarded_message"]}
{"id": "C26", "title": "Unpack never panics on untrusted input", "statement": "No input text makes unpack panic, whatever the resolvers return, as long as no secret given as Base58 or Multibase Ed25519 material is shorter than 32 bytes.", "quantifier": "every input text, every resolver behaviour", "why_tests_cant": "Adversarial inputs; fuzzing samples only.", "anchors": ["src/message/unpack/mod.rs: unpack", "src/utils/did.rs: AsKnownKeyPair for Secret"]}
{"id": "C27", "title": "Short legacy Ed25519 secrets crash", "statement": "Using a Base58 or Multibase Ed25519 secret that decodes to fewer than 32 bytes panics instead of returning an error (a defect: the property 'malformed secrets give an error' is false); for 32 bytes or more no panic occurs.", "quantifier": "every decoded length", "why_tests_cant": "All lengths and encodings.", "anchors": ["src/utils/did.rs: Secret::as_key_pair"]}
{"id": "C28", "title": "Packing never panics", "statement": "pack_plaintext, pack_signed, pack_encrypted and FromPrior::pack never panic for any arguments and any resolver behaviour, except through the short-secret defect; wrap_in_forward panics exactly when routing_keys is empty, and pack_encrypted never calls it that way.", "quantifier": "every message, every argument, every resolver behaviour", "why_tests_cant": "All inputs.", "anchors": ["src/protocols/routing/mod.rs: wrap_in_forward, wrap_in_forward_if_needed", "src/message/pack_encrypted/mod.rs"]}
{"id": "C29", "title": "Resolver failures abort the operation", "statement": "If any resolver call returns an error during unpack, pack_signed, pack_encrypted or FromPrior operations, the whole operation returns an error and performs no further resolver call; the kind is the resolver's kind except for the sender's document during authcrypt unpacking, where it is reported as InvalidState.", "quantifier": "every input, every point at which a resolver may fail", "why_tests_cant": "All fault-injection points over all executions.", "anchors": ["src/message/unpack/mod.rs", "src/message/unpack/authcrypt.rs L63-67", "src/message/pack_encrypted/*.rs", "src/protocols/routing/mod.rs"]}
{"id": "C30", "title": "Argument validation precedes every effect", "statement": "pack_encrypted with a `to`, `from` or `sign_by` that is not a DID, or that contradicts the message's to/from headers, and pack_signed with a non-DID sign_by, fail with IllegalArgument without calling any resolver and without consuming randomness.", "quantifier": "every message and argument triple, every resolver behaviour", "why_tests_cant": "All strings.", "anchors": ["src/message/pack_encrypted/mod.rs: _validate_pack_encrypted", "src/message/pack_signed.rs: _validate_pack_signed"]}
{"id": "C31", "title": "Addressing consistency on pack", "statement": "If pack_encrypted succeeds, then message.to (when present) contains the DID part of `to`, and message.from (when present and `from` given) equals the DID part of `from`.", "quantifier": "every message and argument triple", "why_tests_cant": "All strings.", "anchors": ["src/message/pack_encrypted/mod.rs: _validate_pack_encrypted"]}
{"id": "C32", "title": "Secrets are touched only when needed", "statement": "Unpacking plaintext or signed text that is not encrypted never calls the secrets resolver; anonymous packing without signature never calls it; get_secret is called only with key ids that find_secrets returned earlier in the same operation; find_secrets in unpack is asked only about recipient ids of the envelope or keyAgreement ids of the forward target.", "quantifier": "every input, every resolver behaviour", "why_tests_cant": "Access-pattern property over all executions.", "anchors": ["src/message/unpack/*.rs", "src/message/pack_encrypted/anoncrypt.rs", "src/message/pack_signed.rs"]}
{"id": "C33", "title": "pack_signed picks the right key", "statement": "When sign_by is a key id, the signing key is exactly that key and it must be listed under authentication; when it is a DID, the key is the first secret the resolver reports for the document's authentication list; the reported sign_by_kid and the kid in the JWS header are that key's id, for a secrets resolver that returns only ids it was asked for.", "quantifier": "every DID document, every secret set", "why_tests_cant": "Documents and key lists of any size.", "anchors": ["src/message/pack_signed.rs: pack_signed"]}
{"id": "C34", "title": "Recipient key selection for anonymous encryption", "statement": "With `to` a key id the only recipient is that key; with `to` a DID the recipients are exactly those keyAgreement methods, in document order, that have the type of the first keyAgreement key whose type is recognised; pack fails with InvalidState (not NoCompatibleCrypto) if no type is recognised or that type is not one for key agreement (X25519, P-256).", "quantifier": "every recipient document", "why_tests_cant": "Documents of any size and key mix.", "anchors": ["src/message/pack_encrypted/anoncrypt.rs: anoncrypt"]}
{"id": "C35", "title": "Sender/recipient key negotiation for authenticated encryption", "statement": "The sender key chosen is the first, in the order in which the secrets resolver reports the keys it has, of the sender's keyAgreement keys that has a recognised type and for which the recipient has at least one key of the same type; recipients are all recipient keys of that type in document order; if none exists the result is NoCompatibleCrypto.", "quantifier": "every sender and recipient document, every secret availability", "why_tests_cant": "Pairs of documents of any size.", "anchors": ["src/message/pack_encrypted/authcrypt.rs: authcrypt"]}
{"id": "C36", "title": "Pack metadata equals what is on the wire", "statement": "to_kids reported by pack_encrypted is exactly the recipient list of the emitted envelope (before forwarding), every one of them has the same DID as `to` if the document lists only its own ids, and from_kid is exactly the id encoded in apu and skid.", "quantifier": "every message and document", "why_tests_cant": "All documents.", "anchors": ["src/message/pack_encrypted/mod.rs: PackEncryptedMetadata", "src/jwe/encrypt.rs: encrypt"]}
{"id": "C37", "title": "Service chain resolution is bounded", "statement": "Resolving the routing services of a DID performs at most two DID resolutions, yields at most two services, fails with InvalidState when the second endpoint is again a DID, and never leaves a DID as the transport endpoint reported to the caller.", "quantifier": "every set of documents, including cyclic service references", "why_tests_cant": "Cyclic and adversarial documents.", "anchors": ["src/protocols/routing/mod.rs: resolve_did_comm_services_chain"]}
{"id": "C38", "title": "Service selection", "statement": "Without a service id the first DIDCommMessaging service in document order that accepts didcomm/v2 (or accepts anything) with a nonempty rule is used; with a service id exactly that one, otherwise IllegalArgument.", "quantifier": "every document and service list", "why_tests_cant": "Service lists of any length.", "anchors": ["src/protocols/routing/mod.rs: find_did_comm_service"]}
{"id": "C39", "title": "Forward wrapping decision and transport metadata", "statement": "pack_encrypted wraps the message in forwards iff forward is on and the resolved chain has routing keys; the number of forward layers equals the number of routing keys (mediator endpoint DIDs first, then the service's own routing keys); the messaging_service metadata is present iff the message was wrapped, with the last service's id and the first service's endpoint.", "quantifier": "every document set, every option set", "why_tests_cant": "All documents and chains.", "anchors": ["src/protocols/routing/mod.rs: wrap_in_forward_if_needed", "src/message/pack_encrypted/mod.rs"]}
{"id": "C40", "title": "forward=false is silent", "statement": "With forward disabled, pack_encrypted resolves no routing services and returns the envelope itself with no messaging_service metadata.", "quantifier": "every message, document and option set", "why_tests_cant": "Effect property over all executions.", "anchors": ["src/protocols/routing/mod.rs: wrap_in_forward_if_needed"]}
{"id": "C41", "title": "Forward message parsing inverts building", "statement": "try_parse_forward of the message build_forward_message creates returns the same next hop and payload, and try_parse_forward returns a result only for messages of the forward type with a string `next` and a first attachment carrying JSON.", "quantifier": "every next hop, payload and header set; every message", "why_tests_cant": "All messages.", "anchors": ["src/protocols/routing/mod.rs: build_forward_message, try_parse_forward"]}
{"id": "C42", "title": "Tampering is detected", "statement": "If the primitives are ideal for the content key of an honestly packed envelope (its wrapped forms unwrap to it or not at all, and decryption with it succeeds only on what was encrypted), then any envelope that reuses its wrapped keys and unpacks carries the same protected header, iv and ciphertext followed by tag as the honest one; changing any of them makes unpack fail. The boundary between ciphertext and tag itself is not protected for anoncrypt.", "quantifier": "every modification of an honest envelope", "why_tests_cant": "All modifications, not sampled bit flips.", "anchors": ["src/jwe/decrypt.rs: decrypt", "src/jwe/encrypt.rs: encrypt"]}
{"id": "C43", "title": "base64url decoding is canonical up to padding", "statement": "encode b is the unpadded base64url text of RFC 4648 (the symbols denote the number of the bytes, most significant first), and decode(encode b) = b for all bytes; encode never emits padding; decode s = b exactly if s is encode b, possibly followed by the '=' padding that fills it up to a multiple of four (of two '=' the last may be missing).", "quantifier": "every byte string and every text", "why_tests_cant": "Infinite domains.", "anchors": ["base64::decode_config/encode_config with URL_SAFE_NO_PAD as used in src/jwe, src/jws, src/message"]}
{"id": "C44", "title": "Multicodec and multibase keys are accepted exactly when they carry the right codec", "statement": "A multibase key is accepted for a verification method exactly if it is 'z' followed by the base58btc text of bytes that begin with an unsigned LEB128 number equal to the codec which the method type requires; the key bytes are the bytes after the first two. If the codec prefix is written canonically these are the bytes after the prefix, and a key has exactly one such text (a longer, non-canonical prefix is accepted and leaves prefix bytes in the key). Every other text is refused: Malformed if it is no base58, InvalidState if it has no number, otherwise IllegalArgument; never with a panic.", "quantifier": "every multibase string", "why_tests_cant": "All strings.", "anchors": ["src/utils/did.rs: _from_multicodec, Codec::codec_by_prefix"]}
{"id": "C45", "title": "Key formats are interchangeable", "statement": "The JWK, Base58 and Multibase renderings of the same X25519 or Ed25519 public key give the same key pair value, and likewise for secrets.", "quantifier": "every 32-byte key (indeed every byte string)", "why_tests_cant": "All key values.", "anchors": ["src/utils/did.rs: AsKnownKeyPair"]}
{"id": "C46", "title": "DID URL splitting", "statement": "did_or_url splits at the first '#': it returns the DID part and the whole string as key id iff there is a '#', and is_did holds exactly for strings with at least two ':' whose first segment is 'did'.", "quantifier": "every string", "why_tests_cant": "All strings.", "anchors": ["src/utils/did.rs: did_or_url, is_did"]}
{"id": "C47", "title": "Key type reported equals key type produced", "statement": "If as_key_pair succeeds for a verification method or secret then its key type is the one key_alg reports; a type key_alg calls unsupported never yields a key pair.", "quantifier": "every verification method and secret", "why_tests_cant": "All types, formats and values.", "anchors": ["src/utils/did.rs: key_alg, as_key_pair"]}
{"id": "C48", "title": "Ciphertext is the only channel for content", "statement": "The text returned by pack_encrypted depends on the message content and (for authcrypt) key secrets only through the results of the encryption primitives: two messages for which the content encryption returns the same ciphertext and tag give byte-identical output.", "quantifier": "every pair of messages", "why_tests_cant": "A two-run (non-interference) property.", "anchors": ["src/message/pack_encrypted/*.rs", "src/jwe/encrypt.rs"]}
{"id": "C49", "title": "protect_sender hides the sender from the outer envelope", "statement": "With protect_sender the outer envelope has neither skid nor apu, and depends on the sender only through the ciphertext of the outer encryption and through the type of the sender's key, which decides which of the recipient's keys are used.", "quantifier": "every pair of senders", "why_tests_cant": "Two-run property.", "anchors": ["src/message/pack_encrypted/authcrypt.rs: authcrypt"]}
{"id": "C50", "title": "Envelope headers conform to the DIDComm profile", "statement": "Every envelope produced by pack_encrypted declares typ application/didcomm-encrypted+json, the alg/enc of the requested algorithm, an epk, an apv of the recipients, apu/skid exactly for authcrypt, and every produced JWS declares typ application/didcomm-signed+json with exactly one signature.", "quantifier": "every successful pack", "why_tests_cant": "All executions.", "anchors": ["src/jwe/encrypt.rs: encrypt", "src/jws/sign.rs: sign"]}
{"id": "C51", "title": "Message builder", "statement": "Message::build followed by any sequence of setter calls and finalize yields the message in which scalar headers have the last value set, to/attachment entries appear in call order, extra headers have the last value per key, and everything else is the default.", "quantifier": "every sequence of builder calls", "why_tests_cant": "Unbounded call histories.", "anchors": ["src/message/message.rs: MessageBuilder"]}
{"id": "C52", "title": "Attachment and FromPrior builders", "statement": "The attachment and FromPrior builders behave like last-writer-wins records for any sequence of calls; setting jws on attachment data affects exactly the chosen data variant.", "quantifier": "every sequence of builder calls", "why_tests_cant": "Unbounded call histories.", "anchors": ["src/message/attachment.rs: AttachmentBuilder", "src/message/from_prior/mod.rs: FromPriorBuilder"]}
{"id": "C53", "title": "Example resolvers", "statement": "ExampleDIDResolver.resolve returns the first stored document with the DID, ExampleSecretsResolver.get_secret the first stored secret with the id, and find_secrets the sublist of requested ids that are stored, in request order. The example resolvers of the uniffi binding, asked through its callbacks, give the operation the same answers, whatever else happens to the callback.", "quantifier": "every store content and query; for the binding, every history of the callback", "why_tests_cant": "All stores.", "anchors": ["src/did/resolvers/example.rs", "src/secrets/resolvers/example.rs", "uniffi/src/did/resolvers/example.rs", "uniffi/src/secrets/resolvers/example.rs"]}
{"id": "C54", "title": "Extra headers must not collide with standard headers", "statement": "Serialising and reparsing a message preserves all extra headers exactly when none of their names is a standard header name (or repeated); a collision with a header that is present makes pack succeed but unpack fail; a collision with an absent one turns the value into that header if it has the form of that header, drops it if it is null, and makes unpack fail otherwise.", "quantifier": "every header set", "why_tests_cant": "All header names.", "anchors": ["src/message/message.rs: Message extra_headers flatten"]}
{"id": "C55", "title": "A plaintext message is never mistaken for an envelope", "statement": "Unpacking the text of a plaintext message never treats it as an encrypted or signed envelope.", "quantifier": "every plaintext message", "why_tests_cant": "All header sets; adversarial extra headers.", "anchors": ["src/message/unpack/mod.rs: unpack", "src/jwe/envelope.rs: JWE", "src/jws/envelope.rs: JWS"]}
{"id": "C56", "title": "JSON values survive serialisation", "statement": "Parsing the serialisation of any JSON value (of nesting below the parser limit) gives the value back; values nested deeper than the limit are serialised but rejected on parsing. Integers are printed as the one sequence of decimal digits without leading zeros that denotes them, after a minus sign if negative.", "quantifier": "every JSON value", "why_tests_cant": "Infinite, recursive domain.", "anchors": ["serde_json as used by src/message/message.rs and all envelopes"]}
{"id": "C57", "title": "Key ids with characters that need JSON escaping are not interoperable", "statement": "Packing for a key id containing a character that JSON escapes succeeds, yet unpacking the result fails: envelopes borrow strings from the text.", "quantifier": "every key id", "why_tests_cant": "All strings.", "anchors": ["src/jwe/envelope.rs: PerRecipientHeader", "src/jws/envelope.rs: Header"]}
{"id": "C58", "title": "Unpack is a function of the text and the resolver answers", "statement": "Two unpack calls on the same text with resolvers that give the same answers return the same result: no hidden state or randomness.", "quantifier": "every text, every pair of runs", "why_tests_cant": "Two-run property.", "anchors": ["src/message/unpack/mod.rs: unpack"]}
{"id": "C59", "title": "Binding callbacks resolve at most once", "statement": "A uniffi result callback delivers exactly the first completion (success or error); every later completion returns InvalidState and has no effect; dropping it without completion makes the waiting resolver call fail with InvalidState.", "quantifier": "every sequence of callback invocations", "why_tests_cant": "All call histories and schedules.", "anchors": ["uniffi/src/common.rs: OnResult"]}
{"id": "C60", "title": "Binding adapters only return requested key ids", "statement": "Whatever a foreign secrets resolver returns from find_secrets, the adapter passes on only ids that were requested, in request order and without inventing any; errors of any kind become InvalidState (uniffi) or keep their kind (wasm, except SecretNotFound).", "quantifier": "every foreign resolver answer", "why_tests_cant": "Untrusted foreign code.", "anchors": ["uniffi/src/secrets/secrets_resolver_adapter.rs", "wasm/src/secrets/secrets_resolver.rs", "wasm/src/error.rs"]}
{"id": "C61", "title": "Operations through the bindings report exactly once", "statement": "An operation called through the uniffi or wasm binding calls back (settles its promise) exactly once, with the result of the core operation, unless the operation panics: wrap_in_forward without routing keys and operations handed a too short legacy Ed25519 secret never call back. Through uniffi, resolver failures of every kind surface as InvalidState (never IoError); and since adapters filter found ids, the key-selection guarantees hold for arbitrary foreign secrets resolvers.", "quantifier": "every operation, argument, foreign resolver behaviour and callback schedule", "why_tests_cant": "All inputs and histories; a missing callback is a liveness failure no test that passes can rule out.", "anchors": ["uniffi/src/didcomm/*.rs", "uniffi/src/didcomm/protocols/routing/mod.rs", "wasm/src/message/*.rs", "wasm/src/error.rs"]}
{"id": "C62", "title": "Error kinds of each operation", "statement": "Each operation fails only with error kinds from a fixed set, or with the kind a resolver failed with: pack_plaintext, FromPrior::unpack, wrap_in_forward and anonymous unsigned pack_encrypted with DIDNotResolved, DIDUrlNotFound, Malformed, Unsupported, InvalidState or IllegalArgument; pack_signed, FromPrior::pack and unpack additionally with SecretNotFound; pack_encrypted with a sender additionally with NoCompatibleCrypto. Each of these kinds does occur (the documented lists miss some of them), and the library itself never causes IoError.", "quantifier": "every operation, argument, document, secret and resolver behaviour", "why_tests_cant": "An exhaustive error contract ranges over all inputs.", "anchors": ["src/error.rs: ErrorKind", "src/message/**: # Errors sections"]}
{"id": "C63", "title": "DIDNotResolved and SecretNotFound tell the truth", "statement": "Whenever the DID resolver answers that a DID has no document, the operation stops at once with DIDNotResolved; whenever find_secrets finds nothing it stops at once with SecretNotFound (except when unpack checks whether it owns a key of a forward's target); whenever get_secret does not return a secret that find_secrets reported it stops with SecretNotFound (signing) or InvalidState (sender and recipient keys). Conversely these two errors have no other cause than such an answer, or a resolver that itself failed with that kind.", "quantifier": "every operation, argument and resolver behaviour", "why_tests_cant": "All resolver histories.", "anchors": ["src/message/pack_signed.rs", "src/message/pack_encrypted/*.rs", "src/message/unpack/*.rs", "src/message/from_prior/*.rs", "src/protocols/routing/mod.rs"]}
{"id": "C64", "title": "Options given as JSON are taken as given, absent ones take their defaults", "statement": "PackEncryptedOptions and UnpackOptions given as a JSON object (as every JavaScript caller does) are read member by member: a present option is taken as given, an absent one takes its documented default, the order of members and unknown members do not matter; an unknown algorithm name or `forward_headers` given as the array of pairs the TypeScript declarations ask for is refused with Malformed. `{}` means the Rust default for packing, but not for unpacking: UnpackOptions::default() unwraps re-wrapped forwards, `{}` does not.", "quantifier": "every JSON object of options", "why_tests_cant": "Infinitely many objects; a default that differs between two languages is not visible to either's tests.", "anchors": ["src/message/pack_encrypted/mod.rs: PackEncryptedOptions", "src/message/unpack/mod.rs: UnpackOptions", "src/algorithms.rs", "wasm/src/message/pack_encrypted.rs", "wasm/src/message/unpack.rs"]}
{"id": "C65", "title": "DID documents survive JSON", "statement": "Serialising an ordinary DID document and reading the text gives back the same document, also through a JavaScript DID resolver. Serialisation fails exactly if some service of kind Other holds something else than an object.", "quantifier": "every document with UTF-8 texts, ordinary JSON values and nesting within serde_json's limit", "why_tests_cant": "All documents.", "anchors": ["src/did/did_doc.rs: DIDDoc, VerificationMethod, Service, ServiceKind, DIDCommMessagingService", "wasm/src/did/did_resolver.rs"]}
{"id": "C66", "title": "Secrets survive JSON", "statement": "Serialising a secret and reading the text gives back the same secret, also through a JavaScript secrets resolver.", "quantifier": "every secret with UTF-8 texts and ordinary JSON values", "why_tests_cant": "All secrets.", "anchors": ["src/secrets/mod.rs: Secret, SecretType, SecretMaterial", "wasm/src/secrets/secrets_resolver.rs"]}
{"id": "C67", "title": "What a document may leave out, and what makes it unreadable", "statement": "A service endpoint without accept and routingKeys accepts any profile and has no routing keys. A key is read as JWK if present, else multibase, else base58. One service whose type is neither DIDCommMessaging nor Other, or one verification method of an unknown type, makes the whole document unreadable (Malformed in Rust; operations of a JavaScript caller see InvalidState).", "quantifier": "every JSON document", "why_tests_cant": "All documents, including those with services this library knows nothing about.", "anchors": ["src/did/did_doc.rs: ServiceKind, VerificationMethodType, VerificationMaterial", "src/secrets/mod.rs: SecretMaterial", "wasm/src/did/did_resolver.rs"]}
{"id": "C68", "title": "The JSON of metadata determines the metadata", "statement": "Two metadata values with the same JSON text are equal, so a JavaScript caller learns all of UnpackMetadata and PackEncryptedMetadata.", "quantifier": "every pair of metadata values with UTF-8 texts", "why_tests_cant": "All values.", "anchors": ["src/message/unpack/mod.rs: UnpackMetadata", "src/message/pack_encrypted/mod.rs: PackEncryptedMetadata, MessagingServiceMetadata"]}
{"id": "C69", "title": "JavaScript operations are the core operations", "statement": "With readable options the JavaScript unpack, pack_encrypted and wrap_in_forward ask the same questions and end the same way as the core operations with those options; with unreadable options they fail with Malformed before asking anything.", "quantifier": "every message, text of options, resolver behaviour", "why_tests_cant": "All inputs and histories.", "anchors": ["wasm/src/message/unpack.rs", "wasm/src/message/pack_encrypted.rs", "wasm/src/message/protocols/routing/mod.rs"]}
{"id": "C70", "title": "A from_prior is sent only if it is fit", "statement": "pack_plaintext succeeds exactly if the message has no from_prior, or one that is a JWT signed by a key which the document of the key's DID lists under authentication, with iss and sub two different plain DIDs, iss the DID of the key, and sub the from of the message if it has one; the result is then the JSON of the message. pack_signed and pack_encrypted make the same check. FromPrior::unpack succeeds exactly if the JWT is well-formed and verifies with such a key.", "quantifier": "every message, JWT text, resolver behaviour, option set", "why_tests_cant": "An equivalence over all texts and histories.", "anchors": ["src/message/pack_plaintext.rs: pack_plaintext, validate_pack_plaintext", "src/message/from_prior/unpack.rs: FromPrior::unpack", "src/message/from_prior/pack.rs: validate_pack"]}
{"id": "C71", "title": "Whose documents packing asks for", "statement": "While packing, the DID resolver is asked only for the DIDs of the signer, sender and recipient, the DID of the key that signed the from_prior, and, with forwarding, the DID endpoint and the DIDs of the routing keys of the service selected in the recipient's document, after that document was resolved. pack_signed asks only for signer and issuer, pack_plaintext and FromPrior::pack only for the issuer, wrap_in_forward only for the owners of the routing keys. All questions are for plain DIDs, except a DID endpoint, which is passed on as it is.", "quantifier": "every argument, every resolver behaviour, every prefix of every run, also failing ones", "why_tests_cant": "All histories; what is not asked cannot be seen in a finite sample.", "anchors": ["src/message/pack_encrypted/mod.rs: pack_encrypted", "src/message/pack_encrypted/anoncrypt.rs", "src/message/pack_encrypted/authcrypt.rs", "src/protocols/routing/mod.rs: wrap_in_forward_if_needed, resolve_did_comm_services_chain, wrap_in_forward"]}
{"id": "C72", "title": "Messages are JSON texts, whole", "statement": "A text is read as an envelope, message, header, claim set or document exactly if it is a JSON text by the grammar of RFC 8259 (with no lone surrogates and UTF-8 strings) whose one content fits the type. Everything else is refused: unpack answers Malformed or InvalidState for a text that is not JSON, without asking the DID resolver or the secrets resolver. A text that lost its end is never Malformed: whenever the whole text is accepted, every part of it that is not JSON itself is InvalidState, for envelopes, their headers, claims and (if no number has a beginning that is out of range) messages. In particular every proper beginning of a packed message is refused with InvalidState, without a question. Conversely, when the members read so far already rule out every continuation, the text is Malformed wherever it ends after the next comma, and unpack says so without a question.", "quantifier": "every text, every place where it is cut, every option set and resolver behaviour", "why_tests_cant": "An equivalence with a grammar, over all texts; all cuts of all packed messages.", "anchors": ["src/jwe/parse.rs: parse", "src/jws/parse.rs: parse, parse_compact", "src/message/message.rs: Message::from_str", "src/message/unpack/mod.rs: Message::unpack"]}
{"id": "C73", "title": "A message is what its JSON says", "statement": "A text is read as a message exactly if it is the JSON text of an object with exactly one id, type and body, at most one of every other standard header, a value of the right type for each (null counts as absent), and no member nested too deeply; the message read has the text of every string, the exact value of every integer from -2^63 to 2^64-1, the last value of repeated keys, the default typ if there is none, the members with other names as extra headers, and for attachments the first of the forms base64, json and links that fits. A message returned by unpack is so read from the innermost text; the text of a packed plaintext says the message packed.", "quantifier": "every text and every message", "why_tests_cant": "An equivalence over all JSON texts, with arbitrary nesting, escapes and repeated members.", "anchors": ["src/message/message.rs: Message, Message::from_str", "src/message/attachment.rs: Attachment, AttachmentData", "src/message/unpack/plaintext.rs: _try_unpack_plaintext"]}
{"id": "C74", "title": "Which texts are envelopes, and what happens to other texts", "statement": "A text is read as an encrypted or signed envelope, as one of the three protected headers, or as the claims of a from_prior exactly if it is the JSON text of an object with the required members, each exactly once and of the right type (or an array of the fields in order); the strings of envelopes must be written without escapes. A JSON text that is neither an envelope nor a message is refused as Malformed without a question to the resolvers; one that is a plaintext message and no envelope is returned as it is, without a question, and reported as neither encrypted nor signed.", "quantifier": "every text, option set and resolver behaviour", "why_tests_cant": "An equivalence over all JSON texts.", "anchors": ["src/jwe/envelope.rs", "src/jws/envelope.rs", "src/jwe/parse.rs", "src/jws/parse.rs", "src/message/from_prior/mod.rs: FromPrior", "src/message/unpack/mod.rs: Message::unpack"]}
{"id": "C75", "title": "DID documents and secrets are read from exactly the JSON texts that say them", "statement": "A text is read as a DID document (or a secret) exactly if it is a JSON text whose members say that document: escapes in names and strings are undone, unknown members are ignored, of equal names nothing but unknown ones may be repeated, enumerations may be given by name or as an object with a null, a JWK is preferred to multibase to base58 material, absent routing keys are empty. The answer of a JavaScript resolver is 'nothing' exactly if it is the JSON null, is a document or secret exactly if its JSON says one, and any other answer fails with InvalidState and never panics.", "quantifier": "every byte string, every document, every secret, every behaviour of decimal-number conversion", "why_tests_cant": "there are infinitely many texts per document; a test tries some spellings, not that all others of the same content are read the same and the rest refused", "anchors": ["src/did/did_doc.rs: DIDDoc, VerificationMethod, VerificationMaterial, Service, ServiceKind, DIDCommMessagingService", "src/secrets/mod.rs: Secret, SecretMaterial", "wasm/src/did/did_resolver.rs: JsDIDResolver::resolve", "wasm/src/secrets/secrets_resolver.rs: JsSecretsResolver::get_secret"]}
{"id": "C76", "title": "Options are read from exactly the JSON texts that say them", "statement": "The options of unpacking and of packing that the JavaScript API takes are read from exactly the JSON texts that say them: absent members take the documented defaults, unknown members are ignored, null is refused where it is not allowed, headers are a map in which the last of equal names counts. Any other text fails with Malformed and never panics.", "quantifier": "every byte string, every options value, every behaviour of decimal-number conversion", "why_tests_cant": "a silently ignored or misread option weakens the protection of a message; only a proof over all texts excludes it", "anchors": ["src/message/pack_encrypted/mod.rs: PackEncryptedOptions", "src/message/unpack/mod.rs: UnpackOptions", "wasm/src/message/pack_encrypted.rs: Message::pack_encrypted", "wasm/src/message/unpack.rs: Message::unpack"]}
{"id": "C77", "title": "Every envelope has its own content key, ephemeral key and nonce", "statement": "Packing an encrypted message makes a nest of envelopes (sender envelope, sender-hiding envelope, one per routing key). Each envelope's content key, ephemeral key and nonce, and the id of each forward message, are generated from draws of the random generator of their own: the draws of the run are exactly those of the envelopes, one after the other, and none is used twice. So no two envelopes of one message, and no envelopes of two messages packed with different draws, share a content key.", "quantifier": "every message, addressing, options, every behaviour of the resolvers, every sequence of random draws, every number of routing keys, every pair of packing runs", "why_tests_cant": "a reused key or nonce does not show in any single output; tests use few messages and cannot tell reuse from chance", "anchors": ["src/jwe/encrypt.rs: encrypt", "src/message/pack_encrypted/authcrypt.rs: authcrypt", "src/message/pack_encrypted/anoncrypt.rs: anoncrypt", "src/protocols/routing/mod.rs: build_forward_message, wrap_in_forward"]}
{"id": "C78", "title": "Key material stands for exactly one key or one error", "statement": "Every verification method and every secret stands for a JWK of one of the four supported key types, as a table of types and encodings says, or for one specific error kind: Unsupported for an unknown kty/crv or for a type and a form of material that do not belong together, Malformed for text that is not base58 or a JWK the crypto library refuses, IllegalArgument for a multibase text with another prefix or another multicodec, InvalidState for bytes without a readable multicodec. The type it announces, by which keys are negotiated, is decided by type and material alone; using it as a key of another type is an InvalidState error. The only panic is an Ed25519 secret of fewer than 32 bytes.", "quantifier": "every verification method, every secret, every JWK value, every base58 and multibase text, every crypto library", "why_tests_cant": "the material is arbitrary JSON and text; tests try a few good keys of each kind", "anchors": ["src/utils/did.rs: AsKnownKeyPair for VerificationMethod, AsKnownKeyPair for Secret", "src/utils/crypto.rs: AsKnownKeyPair", "src/jwk.rs: FromJwkValue"]}
{"id": "C79", "title": "Every way in which packing can end, with its error kind, is known and determined", "statement": "For each of Message::pack_plaintext, pack_signed, pack_encrypted, FromPrior::pack, FromPrior::unpack and wrap_in_forward there is a list of reasons (document not resolved, resolver failed, key not listed, method missing, type not supported, key unreadable, no compatible keys, secret missing, claims wrong, route missing, library refused, ...) with the result or the error kind that goes with each. No call ends otherwise. If the cryptographic library refuses nothing, the reasons exclude each other, so that the error kind, or the metadata of a successful call, is a function of the arguments and of what the resolvers answer; it does not depend on random choices. In particular the first of several reasons wins in the listed order.", "quantifier": "all messages, arguments, options, JWTs, claims, texts, routing keys, resolvers answering as any function, all random draws, all cryptographic libraries", "why_tests_cant": "The error of a call depends on the first of a dozen conditions over documents, secrets and types; tests sample some combinations, but not their precedence for all documents.", "anchors": ["src/message/pack_encrypted/mod.rs: Message::pack_encrypted", "src/message/pack_encrypted/anoncrypt.rs: anoncrypt", "src/message/pack_encrypted/authcrypt.rs: authcrypt", "src/message/pack_signed.rs: Message::pack_signed", "src/message/pack_plaintext.rs: Message::pack_plaintext", "src/message/from_prior/pack.rs: FromPrior::pack", "src/message/from_prior/unpack.rs: FromPrior::unpack", "src/protocols/routing/mod.rs: wrap_in_forward", "src/protocols/routing/mod.rs: wrap_in_forward_if_needed"]}
{"id": "C80", "title": "Packing succeeds when documents and secrets are in order", "statement": "If the cryptographic library refuses nothing: anonymous pack_encrypted succeeds whenever the arguments are legal, there is no from_prior, the recipient's document is found, all keys meant have methods, the first recognised type is X25519 or P-256 and the keys of that type are readable, and its metadata lists exactly these keys; with forwarding also whenever a route is found and each key on it can be encrypted for in this sense, and the metadata then names the service and the endpoint. Authenticated packing succeeds under the corresponding conditions on both parties, and pack_signed whenever the first reported secret of the meant keys is readable and of a type that can sign. wrap_in_forward succeeds whenever the text is JSON, there is a routing key, and all can be encrypted for. Whether pack_encrypted succeeds, and with which error or metadata, does not depend on the message except on to, from and from_prior.", "quantifier": "all messages, arguments, options, documents, secrets, random draws, resolvers answering as any function, cryptographic libraries that refuse nothing with the keys at hand", "why_tests_cant": "It is a guarantee of success for all documents and messages meeting the conditions; tests show success for the vectors at hand.", "anchors": ["src/message/pack_encrypted/mod.rs: Message::pack_encrypted", "src/message/pack_encrypted/anoncrypt.rs: anoncrypt", "src/message/pack_encrypted/authcrypt.rs: authcrypt", "src/message/pack_signed.rs: Message::pack_signed", "src/protocols/routing/mod.rs: wrap_in_forward"]}
{"id": "C81", "title": "Every way in which unpacking can end, with its error kind, is known and determined", "statement": "There is a list of the ways in which Message::unpack can end: for each layer of the text (anonymous envelope, envelope of a named sender, signature, plaintext, from_prior, forward for ourselves) what was wrong with it, and the error kind that goes with it, or the message and the metadata. Every call ends in exactly one of these ways, for every text, whoever wrote it; which one is a function of the text, the options and of what the resolvers answer. Two calls with the same answers end the same way.", "quantifier": "all texts, options, resolvers answering as any function, all cryptographic libraries whose decryption never lengthens its input and whose float texts re-read", "why_tests_cant": "The error depends on the first of several dozen conditions over nested headers, recipients, documents and secrets; tests sample some combinations but neither their precedence nor texts nested to any depth.", "anchors": ["src/message/unpack/mod.rs: Message::unpack", "src/message/unpack/mod.rs: Message::_try_unwrap_forwarded_message", "src/message/unpack/mod.rs: has_key_agreement_secret", "src/message/unpack/anoncrypt.rs: _try_unpack_anoncrypt", "src/message/unpack/authcrypt.rs: _try_unpack_authcrypt", "src/message/unpack/sign.rs: _try_unpack_sign", "src/message/unpack/plaintext.rs: _try_unpack_plaintext", "src/jwe/parse.rs: ParsedJWE::verify_didcomm", "src/jwe/decrypt.rs: ParsedJWE::decrypt"]}
{"id": "C82", "title": "Messages of any origin that carry the evidence are accepted", "statement": "A text, written by any implementation, is accepted, with the message in it and with the metadata that follow from its layers, whenever: it is a plaintext message, or a JWS with one signature that verifies with the key listed for the signer in the signer's document, or a JWE of a named sender whose listed key, with a key of ours, opens it, or an anonymous JWE that a key of ours opens, around one of the former, or such an anonymous JWE around a forward to a key of ours, any number of times. The envelope has to be for distinct keys of one DID, of which the first reported as ours opens it (the only one, if all keys have to work).", "quantifier": "all texts of this form, any number of re-wrapped layers, options, documents, secrets, all cryptographic libraries as in C81", "why_tests_cant": "It is interoperability: tests check vectors of a few implementations, not every text with the required evidence.", "anchors": ["src/message/unpack/mod.rs: Message::unpack", "src/message/unpack/anoncrypt.rs: _try_unpack_anoncrypt", "src/message/unpack/authcrypt.rs: _try_unpack_authcrypt", "src/message/unpack/sign.rs: _try_unpack_sign"]}
{"id": "C83", "title": "What is reported as signed was signed by the owner of the key", "statement": "If everybody who owns a key that can stand for a reported signer uses it with this library only (every signature that verifies was made by signing one of the messages M or by packing one of the prior-DID claims P), then a message that unpack returns with a signer is one of the messages M, and claims of a prior DID that unpack reports are one of the claims P. Packing a signed message, or a from_prior, makes exactly one signature, over a text that determines the message, or the claims.", "quantifier": "all input texts, options, answers of resolver and secrets store, sets of messages and claims, and cryptographic primitives with that ideal property", "why_tests_cant": "The claim is about every text an attacker could submit, including texts recombined from pieces of honest signatures; a test tries a few forgeries.", "anchors": ["src/message/unpack/sign.rs::_try_unpack_sign", "src/message/from_prior/unpack.rs::FromPrior::unpack", "src/message/pack_signed.rs::Message::pack_signed", "src/jws/sign.rs", "src/jws/verify.rs"]}
{"id": "C84", "title": "A signature for a message cannot be used as a from_prior, nor the reverse", "statement": "The text signed for a message is never the signed part of a JWT that from_prior unpacking accepts, whatever signature is appended and whatever keys are used. The text signed for the claims of a prior DID, put into a signed envelope, never yields a message.", "quantifier": "all messages, claims, algorithms, key ids, signatures and primitives", "why_tests_cant": "The two formats share keys, algorithms and encodings; that no input confuses them is a claim about all inputs.", "anchors": ["src/jws/envelope.rs::CompactHeader", "src/jws/envelope.rs::ProtectedHeader", "src/message/unpack/sign.rs::_try_unpack_sign", "src/message/from_prior/unpack.rs::FromPrior::unpack"]}
{"id": "C85", "title": "What is reported as authenticated was encrypted by the owner of the sender key", "statement": "If the owners of the reported sender key and of the receiver key use the pair with this library only (whatever opens with the key derived from both was encrypted by packing one of the messages M), then a message that unpack returns with an encrypting sender is one of the messages M, with or without an outer anonymous layer, forwarding and an inner signature.", "quantifier": "all input texts, options, answers of resolver and secrets store, sets of well formed messages, and primitives with that ideal property", "why_tests_cant": "The claim is about every text an attacker could submit.", "anchors": ["src/message/unpack/authcrypt.rs::_try_unpack_authcrypt", "src/message/pack_encrypted/authcrypt.rs::authcrypt", "src/message/unpack/mod.rs::Message::unpack"]}
{"id": "C86", "title": "Objects exchanged with JavaScript and other languages mean what they say", "statement": "A message or set of prior-DID claims made from a JavaScript object is the one the object's JSON says, and any object that says none is refused as Malformed; as_value of a message or of claims gives an object that says the same and from which the constructor makes it again. try_parse_forward returns null for a message that asks for no forwarding and otherwise an object with exactly the message, the next hop and the forwarded message. pack_signed reports exactly sign_by_kid. A JSON value passed to another language as text is read back unchanged.", "quantifier": "all texts JSON.stringify can hand over, all messages, claims and JSON values (round trips: those well formed in the sense of Spec/Values.lean, values nested fewer than 128 levels)", "why_tests_cant": "Objects of every shape, order and nesting can be handed over; the repository's JavaScript tests compare a handful of fixed vectors.", "anchors": ["wasm/src/message/mod.rs::Message", "wasm/src/message/from_prior/mod.rs", "wasm/src/message/pack_signed.rs", "wasm/src/message/protocols/routing/mod.rs", "uniffi/src/common.rs::JsonValue"]}
{"id": "C87", "title": "What a message says decides nothing about its acceptance", "statement": "Of two plaintext messages with the same typ and the same from_prior, unpack asks the same questions and, given the same answers, ends with the same error or with the same metadata and the respective message. So created_time, expires_time, from, to, thread identifiers, body, attachments and extra headers have no influence: a message that has expired is accepted like any other and comes back with its times.", "quantifier": "all pairs of well-formed messages that do not mimic an envelope, all options, answers and cryptographic primitives", "why_tests_cant": "It is a statement about pairs of messages and about the absence of an influence, for every content.", "anchors": ["src/message/unpack/plaintext.rs::_try_unpack_plaintext", "src/message/message.rs::Message::validate"]}
{"id": "C88", "title": "The questions unpacking asks, in order", "statement": "The questions unpack puts to the two resolvers, and their order, are determined by the text and the answers: for each anonymous envelope a search among its recipients if they are keys of one DID, then the secret of the first key found (of the next one only if all keys must work and the one before did); after it, only if forwards are to be unwrapped, the target of a forward found inside; then the document of the sender of an authenticated envelope, before the search among its recipients; then the document of the signer; then that of the issuer of a from_prior. Unless forwards are to be unwrapped at most three documents are asked for and secrets are searched at most twice. Of an anonymous envelope for others nothing is asked but whether it is for us; of an authenticated envelope for others the sender's document is asked for first. Whoever can encrypt a message anonymously for a recipient that unwraps forwards makes it ask for the document of any DID, or search for the secret of any key, by naming it as the target of a forward.", "quantifier": "all texts, options, resolver answers and cryptographic primitives", "why_tests_cant": "A test sees the questions of one message with one set of answers; which DIDs a stranger can make a recipient look up is a question about all texts.", "anchors": ["src/message/unpack/mod.rs::Message::unpack", "src/message/unpack/anoncrypt.rs::_try_unpack_anoncrypt", "src/message/unpack/authcrypt.rs::_try_unpack_authcrypt", "src/message/unpack/sign.rs::_try_unpack_sign", "src/message/unpack/plaintext.rs::_try_unpack_plaintext", "src/protocols/routing/mod.rs::has_key_agreement_secret"]}
{"id": "C89", "title": "The questions packing asks, in order", "statement": "The questions pack_encrypted, pack_signed, pack_plaintext, wrap_in_forward, FromPrior::pack and FromPrior::unpack put to the two resolvers, and their order, are determined by the arguments and the answers. pack_encrypted asks nothing if its arguments are illegal; otherwise it asks for the signer's document, a search among the signer's keys and the secret of the first found, the document of the issuer of the from_prior, the recipient's document, then the sender's document, a search among the sender's keys and one secret, then the recipient's document again and the documents of the mediators on the way, then the document of each routing key, that of the last first; a stage that fails is the last. Without forwarding, an anonymous unsigned message leads to one question, for the recipient's document, and at most four documents are asked for in any case; secrets are searched at most twice. No documents are asked for but those of the recipient, sender, signer, issuer, mediators and routing keys. What a message says, apart from to, from and from_prior, does not influence the questions, so the resolvers learn nothing of it.", "quantifier": "all messages, arguments, options, resolver answers, random draws and cryptographic primitives (for uniqueness: those that refuse nothing)", "why_tests_cant": "A test sees the questions of one packing with one set of answers; that no other document is ever asked for and that the contents do not leak into the questions is a statement about all of them.", "anchors": ["src/message/pack_encrypted/mod.rs::Message::pack_encrypted", "src/message/pack_encrypted/authcrypt.rs::authcrypt", "src/message/pack_encrypted/anoncrypt.rs::anoncrypt", "src/message/pack_signed.rs::Message::pack_signed", "src/message/pack_plaintext.rs::Message::pack_plaintext", "src/protocols/routing/mod.rs::wrap_in_forward_if_needed", "src/message/from_prior/pack.rs::FromPrior::pack", "src/message/from_prior/unpack.rs::FromPrior::unpack"]}
{"id": "C90", "title": "Operations running at the same time through the uniffi binding do not influence each other", "statement": "However many operations are started through the uniffi binding, and however their steps and the completions, repeated completions, late completions and drops of callbacks by the foreign side interleave, each operation is where it would be had only its own steps happened. It asks the questions of the core in order, each with a new callback; the answer to a question is the first completion of the callback given out for that question, or InvalidState if that was an error or the callback was dropped; it calls back exactly once, when the core has ended, with the core's result (never, if the core panics). An operation that waits goes on as soon as its callback was completed or dropped and not before, and from every state it can still end. Completing an old callback, or one callback twice, is answered with InvalidState and changes nothing. If the foreign resolvers answer like given functions, the core gets exactly those answers (with errors as InvalidState and found ids restricted to those asked for).", "quantifier": "all sets of operations, all interleavings of their steps and of the foreign side's actions on all callbacks ever given out, all answers and random draws", "why_tests_cant": "A test runs one interleaving of one or two operations; races between completions, drops and polls of different operations cannot be enumerated by running them.", "anchors": ["uniffi/src/common.rs::OnResult", "uniffi/src/common.rs::OnResultReceiver", "uniffi/src/common.rs::EXECUTOR", "uniffi/src/did/did_resolver_adapter.rs::DIDResolverAdapter::resolve", "uniffi/src/secrets/secrets_resolver_adapter.rs::SecretsResolverAdapter::get_secret", "uniffi/src/secrets/secrets_resolver_adapter.rs::SecretsResolverAdapter::find_secrets", "uniffi/src/didcomm/pack_encrypted.rs::DIDComm::pack_encrypted", "uniffi/src/didcomm/unpack.rs::DIDComm::unpack"]}
{"id": "C91", "title": "An abandoned operation has done the beginning of what it would have done", "statement": "An operation whose future is dropped at any await, or that is looked at at any moment, has asked the resolvers the first of the questions that a complete run with the same answers asks, and nothing else: in particular abandoned packing and unpacking have asked the beginning of the lists of C88 and C89, and packing asked for no documents but those of C89. Through the uniffi binding this holds at any moment, with the callback that is waited for included, whatever else is running. Every beginning of a run is a point where the operation can be abandoned.", "quantifier": "all operations, all points at which they are abandoned, all answers and random draws", "why_tests_cant": "The points at which a future can be dropped are as many as the answers; a test drops it at one.", "anchors": ["src/message/unpack/mod.rs::Message::unpack", "src/message/pack_encrypted/mod.rs::Message::pack_encrypted", "uniffi/src/common.rs::OnResult", "uniffi/src/didcomm/pack_encrypted.rs::DIDComm::pack_encrypted", "uniffi/src/didcomm/unpack.rs::DIDComm::unpack"]}
{"id": "C92", "title": "What was received can be sent on unchanged", "statement": "Whatever text a message was read from, and in whatever layers it came, a message that unpack returns can be packed again as plaintext, signed, or encrypted in any way, and the receiver's unpack returns the same message, with the metadata of the packing used. The same holds for the claims of an unpacked from_prior, and a DID document or a secret that was read is written to a text that is read as the same document or secret. Conditions: the doubles in it are read back by serde_json as they are printed (a message without doubles needs nothing); if it is not signed, it does not have all the members of an envelope; if it is anonymous and not signed, it is no forward for the receiver. Without the second condition a message received as plaintext can, packed as plaintext, turn into somebody's signed message.", "quantifier": "all texts, all messages read from them, all ways of packing, all parties with ordinary documents and keys", "why_tests_cant": "Messages come from other implementations, with escapes, duplicate members, unusual numbers and nesting; a test re-packs a few messages that the library itself made.", "anchors": ["src/message/unpack/mod.rs::Message::unpack", "src/message/message.rs::Message::from_str", "src/message/pack_plaintext.rs::Message::pack_plaintext", "src/message/pack_signed.rs::Message::pack_signed", "src/message/pack_encrypted/mod.rs::Message::pack_encrypted", "src/message/from_prior/mod.rs::FromPrior", "src/did/did_doc.rs::DIDDoc", "src/secrets/mod.rs::Secret"]}
{"id": "C93", "title": "The signed message in the metadata convinces third parties", "statement": "If unpack reports a signed message in the metadata, whatever envelopes it came in, then everybody who sees the documents of the same DIDs can unpack that signed message alone, with any options and without any secrets: the result is the same message, non-repudiable, with the same signer key, algorithm and from_prior, and nothing but documents is asked for. The condition is that the signed message does not at the same time have the form of an encrypted envelope, which is so for everything that pack_signed and pack_encrypted sign. Without it, a text can be made that unpack reports as signed inside an envelope and as a different unsigned message when it is unpacked alone.", "quantifier": "all texts, options, resolvers and third parties that see the same documents", "why_tests_cant": "A test hands over the signed part of a message made by the library; a signed part made by somebody else can have members that lead the third party elsewhere.", "anchors": ["src/message/unpack/mod.rs::UnpackMetadata", "src/message/unpack/mod.rs::Message::unpack", "src/message/unpack/sign.rs::_try_unpack_sign"]}
{"id": "C94", "title": "Resolvers written in JavaScript are seen as what they say", "statement": "If JavaScript resolvers say what some resolvers say - a document, secret or null by any JSON of it, an error by its documented name, found ids by an array in any order and with others among them - then the library sees those resolvers, and every operation of the JavaScript API ends exactly as the operation of the library ends with them, with the same texts and messages and with metadata as JSON. A plain object made a message and encrypted by one JavaScript application arrives, through another application's JavaScript resolvers, as the message the object said, and turns into a plain object that says it again. The exception: SecretNotFound is seen as InvalidState, and found ids are seen in the order of the question. What a resolver says that cannot be understood (a value that is neither null nor a document or secret, something other than an array of ids, an error without one of the library's names) is InvalidState for the library, never an empty answer.", "quantifier": "all JavaScript resolvers, all JSON texts for their results, all operations, messages, options and random values", "why_tests_cant": "Tests use one resolver that returns objects in the form the library itself writes; applications return objects from databases and networks, in any member order, with escapes and unknown members, and throw any error.", "anchors": ["wasm/src/did/did_resolver.rs::JsDIDResolver", "wasm/src/secrets/secrets_resolver.rs::JsSecretsResolver", "wasm/src/error.rs::FromJsResult", "wasm/src/message/unpack.rs::Message::unpack", "wasm/src/message/pack_encrypted.rs::Message::pack_encrypted"]}
{"id": "C95", "title": "JavaScript operations that run at the same time do not influence each other", "statement": "Operations of the JavaScript API are called, start, wait for resolvers' promises and end in any order, while the application settles promises, also ones it returned for several questions, and changes objects it passed. Whatever happens: each operation does what the library does with the JSON its option objects had when it first ran and with what its promises were settled with, the first time; leaving out all other operations changes nothing for it; it settles its own promise at most once, with the result of the library, and nothing later changes that; it waits exactly as long as the promise it waits for is not settled. With promises settled as given JavaScript resolvers reply, it ends as the library ends with them, and such an end is reached. Options are read when the operation first runs and not when it is called: a change in between decides.", "quantifier": "all histories of any number of operations, all orders, all promises and results, all changes of objects", "why_tests_cant": "The interleavings of promises with any number of operations are unbounded; tests await one operation after the other.", "anchors": ["wasm/src/message/pack_encrypted.rs::Message::pack_encrypted", "wasm/src/message/unpack.rs::Message::unpack", "wasm/src/message/protocols/routing/mod.rs::Message::wrap_in_forward", "wasm/src/did/did_resolver.rs::JsDIDResolver", "wasm/src/secrets/secrets_resolver.rs::JsSecretsResolver"]}
{"id": "C96", "title": "Encrypted messages can be denied by their sender", "statement": "A receiver can make, from the receiver's own private keys and a sender's public key, an envelope around any plaintext message, and unpack returns that message as encrypted and authenticated by that sender, with non_repudiation not set. Conversely every envelope that pack_encrypted makes for a named sender without a signature is, for the same random draws, exactly the text the receiver could have made that way; with protect_sender the outer envelope needs only public keys. So an authenticated message is evidence for its receiver only, unlike a signed one.", "quantifier": "all messages, senders, receivers with their keys, resolvers, random draws, options and lawful primitives", "why_tests_cant": "It is a statement about all messages a dishonest receiver could make up and an equality of texts for all keys and draws.", "anchors": ["src/message/pack_encrypted/authcrypt.rs: authcrypt", "src/jwe/encrypt.rs: encrypt", "src/message/unpack/authcrypt.rs: _try_unpack_authcrypt", "src/message/unpack/mod.rs: UnpackMetadata.non_repudiation"]}
{"id": "C97", "title": "Any number of uniffi operations end on a limited number of threads", "statement": "The uniffi binding runs all operations on max(8, processors) threads. However many operations are called and however their steps interleave with the foreign side, at most that many threads are used, and each operation does what it would do with a thread of its own. An operation waiting for an answer uses no thread, is woken when the answer is there and not before; no wake-up is lost. If threads run what they can, foreign code that is called returns, every answer comes sooner or later, and fewer operations panic than there are threads, then every operation ends and has called back exactly once (or panicked); the binding never goes on for ever on its own. The exceptions: while all threads are inside foreign code nothing goes on, so resolvers that keep their thread until another operation has ended can deadlock the binding; and every panic costs a thread for good, so max(8, processors) calls of wrap_in_forward without routing keys leave a binding that never runs anything again.", "quantifier": "all numbers of threads, all sets of operations, all interleavings of threads, operations and foreign code, all infinite executions", "why_tests_cant": "It is a liveness statement about all schedules and all infinite executions, with any number of operations.", "anchors": ["uniffi/src/common.rs: EXECUTOR, OnResult, OnResultReceiver", "uniffi/src/did/did_resolver_adapter.rs", "uniffi/src/secrets/secrets_resolver_adapter.rs", "uniffi/src/didcomm/mod.rs", "uniffi/src/didcomm/protocols/routing/mod.rs: wrap_in_forward"]}
{"id": "C98", "title": "Authenticated encryption says whom a message was meant for, a signature does not", "statement": "If the owners of the sender key unpack reports and of the key that opened the message encrypt for each other only with this library, then the message was packed by one of their operations, from that sender key and for the key that opened it, and without an anonymous layer for all reported recipient keys; so a message that names recipients names the receiver and one that names a sender names the owner of the sender key. For a message that is signed and then encrypted nothing of this holds: whoever receives it can encrypt the signed message for somebody else, who gets the same message, reported as encrypted for them and signed by the signer, even if the message names only the first receiver; the second receiver cannot tell it from a message the signer packed for them. If somebody puts an anonymous layer for other keys of the receiver around an authenticated message, only those keys are reported.", "quantifier": "all histories of packing operations, all received strings, all messages, options, parties, documents and secrets, all primitives with the stated properties", "why_tests_cant": "It relates a received message to every operation its parties may have run before, including those of attackers.", "anchors": ["src/message/unpack/mod.rs: unpack", "src/message/unpack/authcrypt.rs: _try_unpack_authcrypt", "src/message/pack_encrypted/mod.rs: pack_encrypted, _validate_pack_encrypted", "src/message/unpack/sign.rs"]}
{"id": "C99", "title": "The promises of JavaScript operations are settled", "statement": "An operation called through the JavaScript binding ends and settles its promise exactly once (or panics, and then never settles it) if it is run whenever it can go on and every promise its resolvers returned is settled sooner or later; it does not matter how many other operations there are, what they do, whether they end, or what the application does with its objects. So resolvers may themselves use the library, nested as deeply as they like, as long as no operation depends on itself. The exception: operations of a group in which each waits for a promise that is settled only after one of the group has ended never end.", "quantifier": "all infinite executions of any number of operations with any interleaving and any resolvers", "why_tests_cant": "It is a liveness statement about all infinite executions.", "anchors": ["wasm/src/message/pack_encrypted.rs", "wasm/src/message/unpack.rs", "wasm/src/did/did_resolver.rs", "wasm/src/secrets/secrets_resolver.rs"]}
{"id": "C100", "title": "All calls of both bindings are the operations of the library, end to end", "statement": "For each of the seven calls of the uniffi binding and each of the seven asynchronous calls of the JavaScript binding (pack plaintext, signed, encrypted; unpack; pack and unpack from_prior; wrap in forward): whatever happens before, after and at the same time, on however many threads, the results and errors that the caller can be told are exactly those that the library's operation can end with, for the same arguments in the same places, for what the option objects say when the operation first runs, and for the application's resolvers as the library sees them. An object that does not say what it should gives Malformed and nothing else. So a message packed by an application through either binding and unpacked by another through either binding arrives as it was packed, with metadata that tell how, and the receiver is told nothing else.", "quantifier": "all calls with all arguments, all resolvers, all interleavings with any other operations on any number of threads, both bindings on either side", "why_tests_cant": "A test runs one call with one schedule; the statement is an equivalence over all schedules and resolvers.", "anchors": ["uniffi/src/didcomm/pack_plaintext.rs", "uniffi/src/didcomm/pack_signed.rs", "uniffi/src/didcomm/pack_encrypted.rs", "uniffi/src/didcomm/unpack.rs", "uniffi/src/didcomm/from_prior.rs", "uniffi/src/didcomm/protocols/routing/mod.rs", "wasm/src/message/pack_plaintext.rs", "wasm/src/message/pack_signed.rs", "wasm/src/message/from_prior/pack.rs", "wasm/src/message/from_prior/unpack.rs"]}
{"id": "C101", "title": "Everybody who accepts a text sees the same message", "statement": "If two receivers accept the same packed text, they get the same message and the same metadata, whichever of its recipient keys each of them has, whatever documents they know and whether or not they ask that all their keys open it, as long as they agree about unwrapping forwards and the content cipher lets a ciphertext open to one plaintext only. Under the same condition expect_decrypt_by_all_keys only ever rejects: what is accepted with it is accepted without it and says the same. Without the condition (A256GCM and XC20P do not provide it) a sender can make one text say different things to two keys of a receiver, and with expect_decrypt_by_all_keys the disagreement is not reported: what the last key opened is returned.", "quantifier": "all texts, pairs of receivers, options, resolver answers and primitives", "why_tests_cant": "Tests open messages made by the library itself, where all keys get the same content key; the claim is about every text anybody can write and every pair of receivers.", "anchors": ["src/message/unpack/anoncrypt.rs: _try_unpack_anoncrypt", "src/message/unpack/authcrypt.rs: _try_unpack_authcrypt", "src/message/unpack/sign.rs: _try_unpack_sign", "src/message/unpack/mod.rs: Message::unpack, UnpackOptions::expect_decrypt_by_all_keys"]}
{"id": "C102", "title": "The size of a packed message tells the length of the message and nothing else", "statement": "With given resolvers, recipient, sender, signer and options, the length of what pack_encrypted returns, with all layers of signing, encryption and forwarding, is a function of the length of the plaintext JSON of the message, whatever is drawn at random. So messages of the same length give packed messages of the same length. Nothing is padded beyond the blocks of the cipher: packed messages of the same size come from messages whose lengths differ by less than 16 if authenticated encryption or A256CBC-HS512 is used, and are equal otherwise. The same holds for pack_signed and, with the length of the forwarded JSON, for wrap_in_forward.", "quantifier": "all pairs of messages, resolver answers, options, random draws and primitives with fixed lengths", "why_tests_cant": "A test compares the sizes of a few messages; that no content, identifier or draw influences the size, through up to any number of layers that are printed, read and printed again, is a statement about all of them.", "anchors": ["src/message/pack_encrypted/mod.rs: Message::pack_encrypted", "src/message/pack_signed.rs: Message::pack_signed", "src/jwe/encrypt.rs: encrypt", "src/protocols/routing/mod.rs: wrap_in_forward, build_forward_message"]}
{"id": "C103", "title": "A forwarded message shows the next mediator and nothing of the rest of its route", "statement": "Take two messages packed or wrapped for two recipients along two routes that agree up to a routing key k. If the draws for the envelope of k and for the envelopes around it are the same, and content encryption under the content key of k's envelope does not tell the two forward messages inside of it apart, the two results are the same, byte for byte. The two may differ in everything else: message, recipient, sender, signer, sender protection, resolvers (beyond the shared mediators) and the remaining route with its length. So neither an observer nor a mediator before k learns more than the keys up to k.", "quantifier": "all pairs of messages, recipients, senders, signers, options, resolver answers and random draws, routes of any length with any common beginning, and all primitives", "why_tests_cant": "A test can look for a recipient's name in one forwarded message. That nothing of the message, the recipient or the later stops influences what earlier mediators see is a relation between all pairs of executions.", "anchors": ["src/protocols/routing/mod.rs: wrap_in_forward, build_forward_message, wrap_in_forward_if_needed", "src/message/pack_encrypted/anoncrypt.rs: anoncrypt", "src/jwe/encrypt.rs: encrypt"]}
{"id": "C104", "title": "Forwarding can be done by hand and in stages", "statement": "pack_encrypted with forwarding does the same as pack_encrypted without it, followed by looking up the recipient's services and, if these lead through routing keys, wrap_in_forward of the envelope along them: the same questions to the resolvers in the same order, the same random draws, and the same result, be it a text with its metadata or an error. Wrapping along a route is wrapping along its end for the recipient, and then along its beginning for the first key of the end.", "quantifier": "all messages, parties, options, routes of any length split anywhere, histories of resolver answers and draws, results and errors", "why_tests_cant": "Tests compare single results, which are random. That two ways of packing have exactly the same set of executions, including those that fail midway, is an equivalence between all executions.", "anchors": ["src/message/pack_encrypted/mod.rs: Message::pack_encrypted", "src/protocols/routing/mod.rs: wrap_in_forward, wrap_in_forward_if_needed, resolve_did_comm_services_chain"]}
{"id": "C105", "title": "Encrypting a message again gives an unrelated text, signing it again the same text", "statement": "Two calls of pack_encrypted whose random values give different nonces return different texts, also for the same message, sender, receiver and options; and no envelope inside one of them (what a mediator or the receiver sees after removing layers) is equal to one inside the other. All envelopes of one packed message differ, too, and the same holds for wrap_in_forward. So nobody can recognise a repeated message by comparing texts. pack_signed and FromPrior::pack, in contrast, draw no random values: calling them again with the same arguments and the same resolver answers gives exactly the same text, and two different messages never give the same signed text, so anybody who sees signed texts can recognise a repeated message.", "quantifier": "all pairs of messages, receivers, senders, signers, options, routes, resolver answers and random values", "why_tests_cant": "A test compares the texts of a few calls. It cannot show for all options and routes that every one of the nested envelopes differs, nor that the deterministic operations ask for no randomness on any path.", "anchors": ["src/message/pack_encrypted/mod.rs: Message::pack_encrypted", "src/protocols/routing/mod.rs: wrap_in_forward", "src/jwe/encrypt.rs: encrypt", "src/message/pack_signed.rs: Message::pack_signed", "src/message/from_prior/pack.rs: FromPrior::pack", "src/jws/sign.rs: sign, sign_compact"]}
{"id": "C106", "title": "From application to application, directly and through mediators, in every way of packing", "statement": "A message packed by one application for a recipient behind mediators travels along the routing keys of the recipient's services: the application of each mediator unpacks what it gets, whatever else it is doing, to a forward message and nothing else, try_parse_forward of that message tells it the next key and the text for its holder, and what the last mediator is to pass on is unpacked by the recipient's application to the message packed, with metadata that tell how it was packed, and to nothing else. The same, without mediators, for messages that are not encrypted, for signed messages and for claims of a prior DID. Sender, mediators and recipient may use the uniffi or the JavaScript binding, in any mixture, and may be doing anything else at the same time.", "quantifier": "all messages, options, headers, documents, routes of any length, all mixtures of bindings, all schedules of threads and events in each application, all random values", "why_tests_cant": "Tests run one binding at a time with fixed documents and one schedule; here every mixture of bindings, every route and every interleaving counts.", "anchors": ["/repo/uniffi/src/didcomm/pack_encrypted.rs", "/repo/uniffi/src/didcomm/unpack.rs", "/repo/wasm/src/message/pack_encrypted.rs", "/repo/wasm/src/message/unpack.rs", "/repo/src/protocols/routing/mod.rs wrap_in_forward_if_needed, try_parse_forward", "/repo/src/message/unpack/mod.rs unpack"]}
{"id": "C107", "title": "The name of a signer is not signed, that of an issuer is", "statement": "The key id unpack reports for a signed message is not covered by the signature. Whenever a signed message is reported, anybody whose DID document lists the same public key under a key id of its own can have the signed text, with that key id written in place of the signer's, accepted by everybody who sees that document: as the same message, with the same prior claims, not to be repudiated, signed by that key id; no secret is needed. The key id reported for claims of a prior DID is covered: if the owners of the key it names use it with this library only, the claims were packed by a call of FromPrior::pack which reported this very key id, so the issuer in the claims is the DID of that key id and differs from the subject.", "quantifier": "all texts, options, environments, runs of unpack; all documents listing the key and all key ids fit for the wire; all sets of messages signed and of successful packings of claims", "why_tests_cant": "Tests unpack what the expected signer packed; a name taken over needs a document nobody wrote for the tests, and the second half ranges over all histories of use of a key.", "anchors": ["/repo/src/jws/sign.rs sign, sign_compact", "/repo/src/jws/envelope.rs Signature, CompactHeader", "/repo/src/message/unpack/sign.rs _try_unpack_sign", "/repo/src/message/from_prior/pack.rs", "/repo/src/message/from_prior/unpack.rs"]}
{"id": "C108", "title": "What difference the secrets of a receiver make", "statement": "Unless expect_decrypt_by_all_keys is set, only the first key find_secrets reports counts: receivers who see the same documents and whose resolvers report the same first key for any list of keys, with the same secret, get the same result or the same error, whatever else is reported. What a receiver accepts with expect_decrypt_by_all_keys, every device of the receiver that has some of the secrets unpacks to the same message and metadata, with or without the option, or it reports SecretNotFound because it has none of the keys of an envelope (for ciphers that commit to their key). But more secrets are not always better: the first key that is reported has to open the message, the others are not tried, so a message whose entry for that key is spoilt is read by a device without this key and refused where both keys are.", "quantifier": "all texts, options, documents, secrets, resolvers and their answers; for the second part all devices, i.e. all subsets of the secrets", "why_tests_cant": "Tests use one fixed store of secrets; the claims compare the behaviour with all pairs of stores on all texts, also those no honest sender makes.", "anchors": ["/repo/src/message/unpack/anoncrypt.rs _try_unpack_anoncrypt", "/repo/src/message/unpack/authcrypt.rs _try_unpack_authcrypt", "/repo/src/message/unpack/mod.rs UnpackOptions", "/repo/src/secrets/mod.rs SecretsResolver"]}
{"id": "C109", "title": "What difference changes of DID documents make", "statement": "Changes of DID documents that concern no keys (services, the order of lists) make no difference to what unpack returns or which error it reports. Keys may be added: what was accepted is accepted again, with the same message and metadata, as long as the keys used by its sender, its signer and the issuer of its prior-DID claims stay listed with their verification methods. Once one of them is not listed for its purpose any more, the message is refused with DIDUrlNotFound, although it was sent before. A key that no document lists for a purpose is never reported as the sender's, signer's or issuer's key by unpack, whatever text arrives, and never used by pack_encrypted: not as signing key, not as sender's key, not as a key of a recipient, and not in the outermost envelope for a mediator.", "quantifier": "all texts, options, secrets, and all pairs of collections of documents, before and after; for the last part all runs, whatever the resolvers answer", "why_tests_cant": "Tests use fixed documents; the claims compare the behaviour on all texts before and after any change of any number of documents.", "anchors": ["/repo/src/message/unpack/authcrypt.rs _try_unpack_authcrypt", "/repo/src/message/unpack/sign.rs _try_unpack_sign", "/repo/src/message/from_prior/unpack.rs FromPrior::unpack", "/repo/src/message/unpack/mod.rs has_key_agreement_secret", "/repo/src/message/pack_encrypted/mod.rs Message::pack_encrypted", "/repo/src/did/did_resolver.rs DIDResolver"]}
{"id": "C110", "title": "What difference changes of DID documents make to packing", "statement": "With the same secrets and random draws every packing operation returns the same text and metadata, or the same error, before and after changes of DID documents that leave alone the listed keys and their order, the verification methods of each key id and the services chosen. Each operation looks at less than that: pack_signed and FromPrior::pack only at the list of authentication keys of the signer's or issuer's document and at the first key the secrets resolver reports of it, anonymous encryption without forwarding only at the key agreement keys of the recipient and their verification methods and at no secrets, encryption by a sender also at those of the sender. Hence pack_signed signs with a key that has no verification method, or one of another type, without an error, and everybody who sees such a document refuses what it returned, with DIDUrlNotFound or InvalidState.", "quantifier": "all messages, arguments, options, random draws, secrets and all pairs of collections of documents", "why_tests_cant": "Non-interference is a statement about all pairs of environments and all random draws; a test compares two.", "anchors": ["/repo/src/message/pack_signed.rs Message::pack_signed", "/repo/src/message/pack_encrypted/anoncrypt.rs anoncrypt", "/repo/src/message/pack_encrypted/authcrypt.rs authcrypt", "/repo/src/message/from_prior/pack.rs FromPrior::pack", "/repo/src/protocols/routing/mod.rs wrap_in_forward_if_needed, find_did_comm_service"]}
{"id": "C111", "title": "Each operation uses only the cryptographic primitives it is for", "statement": "Exchanging a cryptographic primitive that an operation is not for, by any other one, changes none of its questions and none of its results. Unpacking, whatever text arrives, depends on checking signatures and on opening envelopes only: it never signs, encrypts or makes keys. pack_plaintext depends on no primitive, or, for a message with a from_prior, on checking signatures. pack_signed depends besides on signatures of this very message, FromPrior::pack on signatures of these very claims. pack_encrypted depends on making envelopes, on the sender's key derivation only if a sender is given, on signatures of this message only if a signer is given, on checking signatures only if there is a from_prior, on making identifiers only if forwarding is enabled, and never on opening envelopes.", "quantifier": "all cryptographic primitives and all replacements for them, all texts, messages, arguments, options, and all answers of the resolvers", "why_tests_cant": "That a primitive is never applied, or is applied to one text only, for any input an attacker chooses is not seen from the inputs tried.", "anchors": ["/repo/src/message/unpack/mod.rs Message::unpack", "/repo/src/message/pack_signed.rs Message::pack_signed", "/repo/src/message/pack_encrypted/mod.rs Message::pack_encrypted", "/repo/src/message/from_prior/pack.rs FromPrior::pack", "/repo/src/message/from_prior/unpack.rs FromPrior::unpack", "/repo/src/protocols/routing/mod.rs wrap_in_forward"]}
{"id": "C112", "title": "In every history a signed message was asked for by an earlier call", "statement": "Take any history of successful calls of the library, by anybody, with texts carried between them in any way, in which nobody forges signatures for the keys of a signer. Then a message that unpack returns with this signer was handed for signing, with the secret half of the signer's key, to an earlier pack_signed or pack_encrypted with sign_by; if it was well formed it is this very message. The same holds for the claims of a prior DID that unpack reports and FromPrior::pack: a signed message never passes for claims, nor claims for a message. It also holds for the claims that FromPrior::unpack returns and for every from_prior in a message that some call packed: whatever call takes it for good, FromPrior::pack was asked for these claims before. A call signs nothing but the message or claims it was asked to sign, and pack_signed and FromPrior::pack do sign, with the key of the secret they read. Nothing protects against replays: a text accepted once is accepted any number of times.", "quantifier": "all histories of calls of any length, all environments of the callers, all texts, and all cryptographic primitives for which forging does not happen in the history", "why_tests_cant": "It is a statement about all histories, including those in which an attacker recombines parts of texts seen before.", "anchors": ["/repo/src/message/unpack/mod.rs Message::unpack", "/repo/src/message/unpack/sign.rs _try_unpack_sign", "/repo/src/message/pack_signed.rs Message::pack_signed", "/repo/src/message/pack_encrypted/mod.rs Message::pack_encrypted", "/repo/src/message/from_prior/pack.rs FromPrior::pack", "/repo/src/message/from_prior/unpack.rs FromPrior::unpack", "/repo/src/message/pack_plaintext.rs Message::pack_plaintext"]}
{"id": "C113", "title": "How a text is written makes no difference to unpacking", "statement": "Two texts whose JSON differs only in white space, in the order of members (of objects without repeated names) and in how names are spelled are unpacked with the same questions to resolvers, the same error or the same message and the same metadata; only the signed message in the metadata is the text as given. Two texts of the same encrypted envelope, or of the same signed one, are unpacked alike whatever other members they have. So to every accepted text there are longer and longer ones with the same outcome, and texts cannot serve to recognise a message that comes twice.", "quantifier": "every pair of texts, every nesting of their JSON, every order of members, all options, every resolver behaviour, every cryptography that does not lengthen texts", "why_tests_cant": "A test writes a message in a few ways; the claim ranges over all texts of all JSON contents, and over what is inside envelopes.", "anchors": ["/repo/src/message/unpack/mod.rs: Message::unpack", "/repo/src/jwe/envelope.rs: JWE", "/repo/src/jws/envelope.rs: JWS", "/repo/src/message/message.rs: Message::from_str", "/repo/src/message/attachment.rs: Attachment"]}
{"id": "C114", "title": "Envelopes of any origin survive forwarding", "statement": "A text that is forwarded is read as a JSON value and printed again. Whatever software wrote the text of an encrypted or signed envelope, with whatever white space, order of members, further members, or as arrays of fields, the text that is printed is a text of the same envelope, and an encrypted one is unpacked from it with the same questions to the same message and metadata. So an envelope of any origin that is wrapped in forwards travels along the routing keys and arrives as what it was. What the printed text is an envelope for is known exactly: of equal names the last one counts, and escapes do not matter unless JSON needs them. So the converse is false: texts that are refused because of an escape, or of a repeated name, are accepted after they have been forwarded.", "quantifier": "every JSON text of an envelope, every nesting up to the limit, every list of routing keys, every environment of the mediators and the receiver, all options, every lawful cryptography", "why_tests_cant": "Tests forward envelopes that the library itself has written; the claim ranges over all texts that other software may write for any envelope, and over all routes.", "anchors": ["/repo/src/protocols/routing/mod.rs: build_forward_message, wrap_in_forward, try_parse_forward", "/repo/src/message/unpack/mod.rs: Message::unpack", "/repo/src/jwe/envelope.rs: JWE", "/repo/src/jws/envelope.rs: JWS"]}
{"id": "C115", "title": "How documents, secrets, options and messages are written makes no difference", "statement": "Two JSON texts that differ only in white space, in the order of members (of objects without repeated names) and in the escapes of names and strings are read as the same DID document, the same secret, the same options of unpacking, the same routing keys or algorithm, and, but for the order of headers in a map, the same options of packing and the same message; or both are refused with the same error. So JavaScript resolvers that say the same in another writing lead every operation to the same outcomes. Of envelopes this is not true: an escape in one of their strings makes a text that is no envelope any more.", "quantifier": "every pair of texts, every nesting of their JSON, every order of members, every escape, all resolvers written in JavaScript, every operation", "why_tests_cant": "A test writes a document in a few ways; the claim ranges over all texts of all JSON contents and over all resolvers.", "anchors": ["/repo/src/did/did_doc.rs: DIDDoc", "/repo/src/secrets/mod.rs: Secret", "/repo/src/message/pack_encrypted/mod.rs: PackEncryptedOptions", "/repo/src/message/unpack/mod.rs: UnpackOptions", "/repo/wasm/src/did/did_resolver.rs: JsDIDResolver", "/repo/wasm/src/secrets/secrets_resolver.rs: JsSecretsResolver", "/repo/wasm/src/message/mod.rs: Message::new"]}
{"id": "C116", "title": "In every history a message accepted from a named sender was encrypted by that sender before", "statement": "Take any history of successful calls of the library by any number of parties. Assume that keys derived with a sender are as different as what they are derived from, that the tag of a content commits to the content even for those who know the content key, and that nobody else wraps content keys under the keys that the receiver derives for the sender. Then for every message that unpack returns with a sender key id in encrypted_from_kid, an earlier call of pack_encrypted was asked to encrypt this very message as a named sender, reported the same sender key id, and used a secret that fits the key the sender's document has under that id. Knowing the content key, as every other receiver of the same envelope does, is of no help. Under such derived keys no other call of the library ever wraps anything.", "quantifier": "All histories of calls of any length, with any documents, secrets, options, messages and texts carried in any way between the calls; all cryptographic primitives with the stated laws; all curves and positions in the history.", "why_tests_cant": "A test replays a few exchanges; the claim is about every possible history, in which anybody may hand any text to any receiver, and about every party who knows some content keys.", "anchors": ["/repo/src/message/unpack/authcrypt.rs: _try_unpack_authcrypt", "/repo/src/jwe/decrypt.rs: ParsedJWE::decrypt", "/repo/src/jwe/encrypt.rs: encrypt", "/repo/src/message/pack_encrypted/authcrypt.rs: authcrypt", "/repo/src/message/pack_encrypted/mod.rs: Message::pack_encrypted"]}
{"id": "C117", "title": "Only those for whom a message was encrypted can open it", "statement": "Assume that a wrapped content key opens only under the key it was wrapped under, and that with the ephemeral key written into an envelope the receiver's side derives what the sender's side derived for a public key only from the secret half of that key. If pack_encrypted returned a text without forwarding, then every successful unpack of it, by anybody, at any time, with any options and resolvers, also after the text was written differently, has read a secret that is the secret half of one of the keys in to_kids: a key that the recipient's document, as the packing call saw it, lists for agreement and that the recipient given to the call means. If the text was wrapped for mediators, every successful unpack of it has read the secret half of such a key of the first mediator on the route; the recipient's own secrets do not open it. And if such an unpack, unwrapping forwards, returns anything else than a forward message, it has read such a secret of every mediator on the route and one for a key in to_kids. Consequently unpack ends with an error for everybody who holds none of these secrets, the sender included.", "quantifier": "All messages, recipients, senders, signers, options, documents and secrets of both calls; all routes; all ways of writing the envelope; all cryptographic primitives with the stated laws.", "why_tests_cant": "A test shows that one stranger with one wrong key fails; the claim is about every party, every key and every set of options, and about no further key ever being added to an envelope.", "anchors": ["/repo/src/message/pack_encrypted/mod.rs: Message::pack_encrypted", "/repo/src/message/pack_encrypted/anoncrypt.rs: anoncrypt", "/repo/src/message/pack_encrypted/authcrypt.rs: authcrypt", "/repo/src/jwe/encrypt.rs: encrypt", "/repo/src/jwe/decrypt.rs: ParsedJWE::decrypt", "/repo/src/protocols/routing/mod.rs: wrap_in_forward", "/repo/src/message/unpack/mod.rs: Message::unpack"]}
{"id": "C118", "title": "What difference the secrets of a sender make", "statement": "Secrets make no difference to pack_plaintext, to FromPrior::unpack, to wrapping in forwards and to pack_encrypted without sender and signer: with the same documents and random draws the same is returned, or the same error. What signs looks only at the secrets of the key that was named, or of the authentication keys the signer's document lists; what encrypts as a sender only at those of the key that was named, or of the keys for agreement the sender's document lists. If packing succeeds, only the secrets of the keys that the metadata name count: a device that has these and any of the others returns the very same text and metadata with the same draws. But more secrets can do harm: an additional secret that is reported first decides who signs, makes signing fail if its type is not supported although the next key would do, and the additional secret of a key that is listed for agreement without a verification method makes encryption by a sender fail.", "quantifier": "all messages, arguments, options, random draws, documents, and all pairs of stores of secrets", "why_tests_cant": "The claims compare the results with all pairs of stores of secrets, for all documents and draws; a test has one store.", "anchors": ["/repo/src/message/pack_signed.rs Message::pack_signed", "/repo/src/message/pack_encrypted/mod.rs Message::pack_encrypted", "/repo/src/message/pack_encrypted/authcrypt.rs authcrypt", "/repo/src/message/from_prior/pack.rs FromPrior::pack", "/repo/src/secrets/mod.rs SecretsResolver"]}
{"id": "C119", "title": "Layers are removed in one order, and in no other", "statement": "A text that unpack accepts has the layers around its message in one order: any number of forward messages, each in an anonymous envelope of its own and only if unwrapping was asked for; then, each at most once, an anonymous envelope, an envelope of a named sender, and a signature. The metadata tells exactly which of these there were: re_wrapped_in_forward, anonymous_sender, encrypted_from_kid, non_repudiation, encrypted and authenticated. Every other order is refused, whatever the resolvers answer: a signed text whose payload is not a plaintext message, so every signed envelope; an envelope of a named sender around another encrypted envelope; an anonymous envelope around another anonymous one.", "quantifier": "all texts, options, answers of the resolvers and cryptographic primitives", "why_tests_cant": "A test tries some ways of nesting envelopes; the claim is about all texts, any depth of nesting and all answers of the resolvers.", "anchors": ["/repo/src/message/unpack/mod.rs: Message::unpack", "/repo/src/message/unpack/anoncrypt.rs: _try_unpack_anoncrypt", "/repo/src/message/unpack/authcrypt.rs: _try_unpack_authcrypt", "/repo/src/message/unpack/sign.rs: _try_unpack_sign", "/repo/src/message/unpack/plaintext.rs: _try_unpack_plaintext"]}
