# A Lean 4 model of didcomm-rust

This document says what is modelled, how each property in `properties.jsonl` is
stated and proved, what was found, and what has to be trusted.

Contents: 1 how the code is modelled; 2 what is modelled and what is not;
3 simplifications; 4 plan and proof per property; 5 findings; 6 trusted base;
7 layout; 8 how the theorems were tested.

## 1. How the code is modelled

The model lives in `lean/Verif/Model/`.  Every definition cites the file and lines
in `/repo` that it follows.

* **Text and bytes.** A Rust `str` and a `[u8]` are both `List UInt8`; the
  text is UTF-8.  A predicate `validUtf8` models `String::from_utf8`.
* **Results.** `Res α = Except Err α`.  `Err` is one of the nine `ErrorKind`s,
  `panic` (an abort of the thread) or `fuel` (the model's recursion budget ran
  out; proved unreachable in `Props/Termination`).  Error messages are not
  modelled, kinds are.
* **Effects.** Functions that call resolvers or the random generator are values
  of an inductive type `Prog α`: a tree of questions (`resolve`, `findSecrets`,
  `getSecret`, `random`) and continuations.  `Runs p tr r` says that the program
  `p` can produce the result `r` with the history `tr` of questions and answers.
  A theorem that quantifies over all `tr` covers every resolver, including
  adversarial ones, ones that change their answer and ones that fail at any
  point.  A fixed environment is a `World` (`Spec/World`).
* **JSON.** Concrete, byte level: a tokenising recursive-descent parser that
  follows serde_json (grammar, escapes, surrogates, EOF versus syntax error,
  nesting limit 128, duplicate fields, ignored fields, borrowed `&str` fields
  that reject escapes, untagged enums, flattened maps) and the compact printer.
* **base64url, base58, varint, multicodec.** Concrete, byte level.
* **Cryptography.** A record `Crypto` of arbitrary functions: JWK import, ECDH-ES,
  ECDH-1PU, key wrap, AEAD, signatures, SHA-256, uuid.  Safety theorems hold for
  *every* such record.  Round-trip theorems assume `Crypto.Lawful` (verification
  accepts what signing makes, both ECDH sides agree, unwrap inverts wrap, AEAD
  decryption inverts encryption), and a toy instance (`Spec/Toy`,
  `Proofs/Toy`) shows that the laws are consistent.
* **Generic envelope code.** `jwe::encrypt/decrypt` are generic in Rust over
  content cipher, key agreement and curve; the model takes those type arguments
  as values, separately from the header's `alg` and `enc` strings, so that a
  mismatch between them can be expressed.
* **unpack loop.** Written with fuel `msg.length + 1`; `C25_ends` shows that the
  fuel is enough (under the stated condition on decryption) and `C25_no_limit`
  that more fuel never changes a result.

## 2. What is modelled and what is not

| Source | Modelled | Model file |
|---|---|---|
| `src/error.rs` | kinds, `kind`, `context`, `to_didcomm` (kinds only) | `Basic`, `Serde` |
| `src/algorithms.rs` | all | `Types` |
| `src/did/did_doc.rs`, `src/secrets/mod.rs` | the data types, their serde, the traits as questions | `Types`, `DocSerde`, `Prog` |
| `src/did/resolvers/example.rs`, `src/secrets/resolvers/example.rs` | all | `Example` |
| `src/jwe/*.rs` | all functions | `Jwe`, `Serde`, `Types` |
| `src/jws/*.rs` | all functions | `Jws`, `Serde`, `Types` |
| `src/jwk.rs` | as fields `fromJwk`, `toJwkPublic` of `Crypto` | `Crypto` |
| `src/message/message.rs`, `attachment.rs` | types, serde, builders, `from_str`, `validate` | `Types`, `Serde`, `Builders`, `Unpack` |
| `src/message/from_prior/*.rs` | all functions | `FromPrior`, `Builders`, `Serde` |
| `src/message/pack_plaintext.rs`, `pack_signed.rs` | all functions | `Pack` |
| `src/message/pack_encrypted/*.rs` | all functions | `Pack`, `Routing` |
| `src/message/unpack/*.rs` | all functions | `Unpack` |
| `src/protocols/routing/*.rs` | all functions | `Routing` |
| `src/utils/did.rs`, `src/utils/crypto.rs` | all functions; primitives are `Crypto` fields | `Did`, `Keys`, `Codec`, `Crypto` |
| `uniffi/src/common.rs`, resolver adapters, `didcomm/*.rs` | the callback cell, the adapters, the report to the caller, all tasks on the executor interleaved with the foreign side, JSON values as text, the example resolvers | `Bindings`, `UniffiSystem`, `Pool`, `JsApi`, `UniffiExample` |
| `wasm/src/error.rs`, resolver adapters, `message/*.rs` | error names both ways, the adapters, the report to the caller, values crossing as JSON text, constructors and `as_value`, `try_parse_forward`, operations as futures that take turns | `Bindings`, `DocSerde`, `JsApi`, `JsSystem` |

Not modelled: the cryptographic primitives themselves (askar-crypto, sha2); the
text of error messages; logging; tests and benches (`src/test_vectors` is copied to
`lean/Verif/Vectors` to test the model, section 8); the
TypeScript declarations, getters, setters and `Display` of the wasm wrapper types;
the code generated by uniffi and wasm-bindgen (conversion of arguments and
results other than by serde; JavaScript's own reading and writing of JSON, which
rounds integers beyond 2^53); memory and stack exhaustion, timing, zeroisation; a
resolver that panics or never answers.

## 3. Simplifications (also noted at the definitions)

* In `UniffiSystem` the executor of the uniffi binding has a thread for every task
  that can go on, and a foreign resolver is called and returns in one step.
  `Pool` adds the limited number of threads, foreign code that keeps its thread,
  and threads lost to panics; the queue is served in any order, and foreign code
  does not panic.
* `HashMap` extra headers are association lists; iteration order is list order.
* Floating-point numbers are kept as text; the `f64` parse/print pair is an
  abstract function.  Values with floats round trip when the text is stable
  under it.
* For DID documents, secrets and options a text that is both truncated and
  ill-typed is reported as truncated; the callers replace either error by one of
  their own.  For envelopes, headers, claims and messages the model follows
  serde_json: what was read before the end of the text is checked first
  (`Model/Serde`, "Texts that end too early").
* `sort` is insertion sort (equal strings are indistinguishable).
* The keys of `Crypto` are of one type for all curves; the curve is a separate
  argument.

## 4. Plan and proof per property

| Property | Model | Proof | File in `Props/` |
|---|---|---|---|
| C01-C06 | pack and unpack programs, JSON printer and parser, `Crypto.Lawful` | composition of inverse laws: print/parse, base64, AEAD, wrap, ECDH, sign/verify; induction over JSON values, recipient lists | `RoundTrip` |
| C07 | FromPrior pack/unpack | same inverse laws for the compact JWS | `RoundTrip` |
| C08, C09 | routing and unpack loop | induction over routing keys / forward layers | `Forward` |
| C10, C11, C13 | unpack over all traces | inversion of `Runs` of every layer, evidence predicates in `Spec/Evidence` | `Evidence` |
| C12, C17, C18 | unpack over all traces | loop invariant | `Evidence` |
| C14, C16 | concrete attack run | false of the code: negation by witness; the weaker true statement as `_partial` | `Negative` |
| C15, C30, C31 | validation functions | inversion; emptiness of the trace | `Validation`, `Negotiation` |
| C19-C24 | JWE/JWS parse, verify, decrypt | inversion; permutation lemma for sort; induction over keys | `Evidence` |
| C25 | unpack loop | decreasing measure: text length; counting questions | `Termination` |
| C26-C28 | panic as an error value | no-panic predicate closed under bind | `NoPanic` |
| C29, C32, C58 | traces | predicates on traces (`Spec/Trace`) by inversion | `Traces` |
| C33-C36, C40 | key selection | list lemmas against `Spec/Select` | `Validation`, `Negotiation` |
| C37-C39, C41 | routing | inversion, list lemmas against `Spec/Route`, parse-after-build | `Routing` |
| C42 | encrypt/decrypt with ideal primitives as hypothesis | inversion | `Secrecy` |
| C43-C47 | codecs, did.rs; base64url and base58btc as numbers (`Spec/Digits.lean`) | induction on bytes; case analysis; digits of a number are unique | `Codec`, `Digits` |
| C48, C49 | two-run relation | congruence through the AEAD call | `Secrecy` |
| C50 | pack inversion | parse of produced headers | `Secrecy` |
| C51-C53 | builders and example resolvers, of the core and of uniffi | induction over call lists; C59 for the callbacks | `Builders`, `UniffiExample` |
| C54, C56 | JSON and message decoding | induction over values, fuel-free parser; inserting a member into a content | `Json`, `Integers`, `Moved` |
| C55, C57 | JSON and message decoding | negations by witness, `_partial` for the true part | `Negative` |
| C59-C61 | uniffi/wasm adapters | state machine induction; composition with C25-C28 | `Bindings` |
| C62, C63 | every operation | predicate on the set of possible kinds, closed under bind; truthfulness by inversion | `Errors` |
| C64-C69 | serde of options, documents, secrets, metadata; wasm operations | decoder inverts printer, by fields; refusal by inversion | `Documents` |
| C70 | FromPrior unpack, pack_plaintext | inversion both ways against `Spec/Evidence` | `Prior` |
| C71 | traces of packing | predicate on every question (`Spec/LookUp`), closed under bind | `LookUps` |
| C72 | the parser of JSON, against RFC 8259 as inductive predicates (`Spec/Grammar`) | soundness and completeness of the parser by induction on fuel and on the grammar; what was read of a cut text begins the content of the whole (`Begins`), and no decoder refuses a beginning of what it accepts (`Steady`); members that are read without complaint can be completed to an accepted text (`completed`) | `Grammar`, `Noticed` |
| C73 | decoders of messages and attachments, against relations on JSON contents (`Spec/Reading`) | each decoder equivalent to its relation, by induction on contents and on member lists | `Reading` |
| C74 | decoders of envelopes, headers and claims | as C73 | `Reading` |
| C75 | decoders of documents and secrets, wasm resolvers, against relations on JSON contents (`Spec/ReadingDocs`) | iff between decoders and relations; the resolvers' answers classified completely | `ReadingDocs` |
| C76 | decoders of options | iff for `UnpackOptions`; soundness and completeness up to header order for `PackEncryptedOptions`; all other texts `Malformed` | `ReadingDocs` |
| C77 | packing, against a description of a packed text as a nest of layers with their draws (`Spec/Fresh`) | induction over the wrapping loop | `Fresh` |
| C78 | key material, against a table of types, encodings and what they stand for (`Spec/KeyMaterial`) | case analysis over type and material, with the exact base58 and multibase lemmas of C45 and C46 | `KeyMaterial` |
| C79 | packing, against inductive relations with one constructor per reason (`Spec/Outcome`) | following the programs with a rule per step (`Yields`); case analysis for uniqueness | `Outcome` |
| C80 | as C79 | the success rows of the lists of C79, with uniqueness | `Outcome` |
| C81 | unpacking, against inductive relations with one constructor per reason and one relation per layer (`Spec/OutcomeUnpack`) | following the programs (`Yields`); uniqueness by case analysis, with induction over re-wrapped layers and recipients | `OutcomeUnpack` |
| C82 | `Arrives` in `Spec/OutcomeUnpack`, from `Spec/Evidence` | induction over the layers, through the table of C81 | `OutcomeUnpack` |
| C83 | unpack, packSigned, FromPrior.pack; ideal signatures as a hypothesis over an arbitrary set of honest messages (`Spec/Authentic`) | inversion; base64 texts contain no dot, so the signed text splits in one way | `Authentic` |
| C84 | decoders of both headers and of messages on printed texts | the separation follows from missing members | `Authentic` |
| C85 | unpack; ideal authenticated encryption as a hypothesis over an arbitrary set of honest messages | inversion | `Authentic` |
| C86 | wasm constructors, `as_value`, `try_parse_forward`, `pack_signed`; uniffi JSON values | C72, C73 and C74 on the texts exchanged | `JsApi` |
| C87 | unpack on plain texts | characterisation of unpack on printed messages | `Times` |
| C88 | all questions of unpack with their order | relation on lists of questions, by induction along the program, and its uniqueness | `Questions` |
| C89 | all questions of packing with their order | relation on outcomes and lists of questions, by induction along the program, and its uniqueness | `PackQuestions` |
| C90 | the tasks of all operations with all callbacks ever given out; interleaved histories | invariant of a task over all histories; projection of a history to one task | `UniffiSystem` |
| C91 | runs cut off at any question | path of a program, extended to a run | `UniffiSystem` |
| C92 | the content of the text as a tree; values read from it | induction on the tree: texts are UTF-8, depth is bounded, numbers are in range; then C01–C07, C65, C66 | `SendOn` |
| C93 | both runs of unpack, the answers of two environments | inversion of the outcome table C81, transport of its signed and plain layers to the other environment | `ThirdParty` |
| C94 | JavaScript resolvers as functions to promise results, the adapters | the answers of C75 and the error names, then C69/C86 and the round trip of C92 | `JsEnv` |
| C95 | heap of promises and objects, operations as futures, histories | invariant of every history linking each operation to its own events and to the first settlement of its promises; induction on the program for the realisation | `JsSystem` |
| C96 | the receiver's forging algorithm (Spec/Deniable.lean) against `packEncrypted` and `unpack` | the receiving side of the key agreement put in the place of the sending side; inversion of the packing run and equality of the texts | `Props/Deniable.lean` |
| C97 | task steps of C90 with places (queue, thread, foreign code, waiting) and `n` threads | refinement to the unlimited executor; place invariant; well-founded measure of what each task has left, for infinite executions | `Props/Pool.lean` |
| C98 | histories of packing operations, `OnlyPackedFor`; redirecting receivers | inversion of unpack down to the opened content, inversion of the packing run, DID ownership of key ids; round trip of re-encrypted signed messages; concrete counterexamples | `Props/Meant.lean` |
| C99 | infinite executions of the operations of C95 | induction on the program an operation has left; monotone promises; fairness as a hypothesis; well-founded nesting | `Props/JsEnds.lean` |
| C100 | the fourteen calls as operations of the systems of C95 and C97 | invariants of those systems for one direction; a history built from the run for the other; C03–C06 for the round trip | `Props/Api.lean` |
| C101 | two receivers of one text | compare the outcome tables of unpacking (C81) layer by layer for two environments; counterexample with a cipher that does not commit | `Props/Agree.lean` |
| C102 | packEncrypted, packSigned and wrapInForward twice | lengths of printed envelopes layer by layer; an envelope that is read into a JSON value prints with the same length; compose | `Props/Size.lean` |
| C103 | packEncrypted and wrapInForward twice | two runs; induction over the shared beginning of the routes, each layer a function of its draws, the key's document and the text inside | `Props/Onion.lean` |
| C104 | packEncrypted, wrapInForward | laws of sequencing programs; induction over the route; equivalence of runs | `Props/ByHand.lean` |
| C105 | `pack_encrypted`, `wrap_in_forward`, `pack_signed`, `FromPrior::pack` with the random generator as part of the environment | the envelopes of C77 are compared by the text of their nonce, which can be read off the end of the text without assumptions on key ids (`onWire_end`); the deterministic half by determinism of programs without draws (`runs_det`) | `Props/Repeats.lean` |
| C106 | an application as a binding with what its resolvers answer (`Spec/Api.lean`); a journey as a chain of applications each of which comes to a forward and to nothing else (`Spec/Journey.lean`) | what packing comes to is a run of the library by C100; C08 gives the journey for the library, induction along the route carries it to the applications; round trips C01–C07 for the last step | `Props/Journey.lean` |
| C107 | signed texts by the words on the wire (`Spec/Wire.lean`); a history of packings of claims, each a run of `FromPrior::pack` (`Spec/Issuers.lean`) | the tables of outcomes C81 read off the first run and built up again with the other key id; C13, C15 and reading back the printed header for the issuer | `Props/SignerName.lean` |
| C108 | receivers as environments, a device as an environment that reports some of the keys (`Spec/Devices.lean`) | the tables of outcomes of unpacking (C81), layer by layer and by induction along unwrapped forwards; a spoilt envelope computed by the kernel | `Props/Devices.lean` |
| C109 | documents before and after as two environments (`Spec/DocUpdates.lean`) | the tables of outcomes of unpacking (C81), layer by layer and by induction along unwrapped forwards; the last part from the evidence theorems (C10, C11, C13, C33-C36) | `Props/DocUpdates.lean` |
| C110 | two environments and one stream of random draws (`Spec/PackUpdates.lean`) | a relation between programs that run abreast, asking each other's questions in the same order, closed under sequencing; the refusal from the tables of outcomes of unpacking (C81) | `Props/PackUpdates.lean` |
| C111 | a record of primitives and the same cryptography with these exchanged (`Spec/Primitives.lean`) | equality of the programs over both, by induction over their structure | `Props/Primitives.lean` |
| C112 | histories of calls with their environments, signing and relying defined by exchanging primitives (`Spec/History.lean`); the calls that accept a `from_prior` (`Spec/HistoryPrior.lean`) | what each operation can sign from C111, what a receiver relied on from C10 and C13, what a sender of a `from_prior` relied on from C70, texts told apart by their dots and headers | `Props/History.lean`, `Props/HistoryPrior.lean` |
| C113 | contents of JSON texts, all decoders, `unpack` | decoders give the same for alike contents (induction on the likeness; sorted insertion does not depend on the order); programs that follow each other step by step; C25 to compare different lengths; C74 for envelopes | `Props/Layout.lean` |
| C114 | contents of JSON texts, their values, printing, envelopes, `wrap_in_forward`, `unpack` | a string without escapes is printed without escapes (induction on the grammar); the relation between contents and envelopes is kept by printing, field by field, and inverted for the exact form (Spec/Carried); C08 for the route, C113 for unpacking | `Props/Carried.lean` |
| C115 | contents of JSON texts, decoders of documents, secrets, options and messages, JavaScript resolvers | decoders give the same with and without escapes (structural induction) and for alike contents (as C113); the resolvers the library sees are equal | `Props/Written.lean` |
| C116 | calls with what they returned, histories, exchange of the key-wrapping primitives (`Spec/History.lean`, `Spec/HistoryAuth.lean`) | inversion of the receiving run with both primitives, the anonymous layers being the same; on the sending side any other run goes through unchanged; the tag then ties the content | `Props/HistoryAuth.lean` |
| C117 | the converse of the round-trip laws, the secret a run has read (`Spec/Exclusive.lean`) | the recipients parsed back are those encrypted for; the run of decrypt that succeeds has unwrapped one of their entries, so the laws give the key; for a protected sender the same for the outer envelope | `Props/Exclusive.lean` |
| C118 | a sender with some of the secrets of another, resolvers that agree on the listed keys (`Spec/SenderSecrets.lean`) | the two runs go side by side up to the choice of the key; the first fitting key of a list stays the first after others were removed | `Props/SenderSecrets.lean` |
| C119 | the layers of a text as a list, the one order (`Spec/Nesting.lean`) | from the four stages of a successful run, by induction on the unwrapping | `Props/Nesting.lean` |

Three properties are `partial` in `MANIFEST.json`.  C14, C16 and C55 are false of
the code as it is; in each case the negation is proved with a concrete witness
next to the true part.

## 5. Findings: where the code and the expected property disagree

(a) `unpack` does not compare the plaintext's `from` with the DID of the key that
    authenticated it, nor `to` with the receiver; `pack_signed` does not compare
    `sign_by` with `from` (C16_not_checked, C16_absent, C16_signed_for_another).
(b) `FromPrior::unpack` checks neither that `iss` is the DID of the signing key nor
    that `sub` is the sender (C14_any_issuer, C14_not_checked).
(c) `wrap_in_forward` panics for an empty list of routing keys (C28_wrap_empty).
(d) Ed25519 secrets in Base58 or Multibase form with fewer than 32 bytes panic
    (C27_secret, C28_short, C26_short).
(e) authcrypt unpacking reports every DID resolver error as `InvalidState`
    (C29_masked).
(f) A plaintext whose extra headers imitate a JWE or JWS is read as that envelope
    (C55_mimicry); extra headers with the name of a standard header break the round
    trip (C54_collision_not_preserved, C54_collision_rejected).
(g) Bodies nested deeper than the parser's limit pack but do not unpack
    (C56_too_deep, C56_deep_body); key ids that need JSON escapes pack but do not
    unpack (C57_recipient, C57_signer, C57_sender, C57_issuer).
(h) The `apv` join with "." is not injective when key ids contain dots (C20_dots).
(i) Without `expect_decrypt_by_all_keys` only the first secret found is tried
    (/repo/src/message/unpack/anoncrypt.rs L83-167, /repo/src/message/unpack/authcrypt.rs
    L132-192; C24, C108_first_only).  Its failure ends `unpack`, so a receiver with more
    secrets can fail where one with fewer succeeds (C108_more_can_hurt).
(j) Unwrapping a forward that was wrapped for the receiver itself overwrites
    `anonymous_sender`, `encrypted_to_kids` and `enc_alg_anon` with those of the
    forward layer (C09_unwrapped, `reWrapped`).
(k) `typ` of a JWE or JWS is not checked; base64 is malleable in its padding
    (C43_canonical); a truncated JSON is `InvalidState` instead of `Malformed`
    (C62_unpack lists it).
(l) A multicodec prefix written as a non-canonical varint is accepted and leaves
    prefix bytes in the key (C44_noncanonical).
(m) `from_js` of the wasm binding does not know `SecretNotFound`
    (C60_error_names); the uniffi adapters turn every resolver error into
    `InvalidState` (C60_uniffi).
(n) For anonymous encryption only the concatenation of ciphertext and tag is
    bound, so the split may be moved (C42_boundary).
(o) A forwarded message is re-serialised: the bytes after a hop may differ from and
    be longer than the source (C25 measures the parsed text).
(p) With `protect_sender` the key type of the sender still decides which recipient
    keys appear (C49_key_type_shows).
(q) Through the bindings a panicking operation never calls back (C61_silent).
(r) The documented error lists are incomplete; C62 gives the exact sets.
    `IllegalArgument` is undocumented for pack_plaintext, pack_signed,
    pack_encrypted, unpack, FromPrior::unpack and wrap_in_forward, `Malformed` for
    pack_signed and pack_encrypted, `InvalidState` for FromPrior::unpack.
(s) A secret that vanishes between `find_secrets` and `get_secret` is
    `SecretNotFound` when signing but `InvalidState` for an authcrypt sender and in
    unpack (C63).
(t) A `find_secrets` that returns ids it was not asked for is believed; the
    theorems that need otherwise have the hypothesis `HonestFind` or
    `HonestSecrets`, which both bindings discharge (C60_filter, C61_honest).
(u) `UnpackOptions::default()` has `unwrap_re_wrapping_forward: true`, but the
    documentation and the serde default say false: a JavaScript caller's `{}` is
    not the Rust default (C64_unpack_empty).
(v) The TypeScript declarations give `forward_headers` the type
    `Array<[string, string]>`; such an array is refused (C64_header_pairs).
(w) A service or verification method of a type the library does not know makes
    the whole DID document unreadable (C67_unknown_service, C67_unknown_method).
(x) A DID endpoint of a service is handed to the DID resolver as it is, also if it is
    a key id or has another fragment (C71_url_looked_up); all other questions are
    for plain DIDs (C71_bare).
(y) The media type in the header of a signed message is not checked on unpacking, so
    a signature over a `from_prior` is, put into a signed envelope, a valid signature;
    only the missing `id` of its payload keeps it from being a message (C84).
(z) The TypeScript declaration of `IFromPrior` calls `iss` the new and `sub` the prior
    DID; the code signs with a key of `iss` and compares `sub` with the sender (C70).
(aa) A truncated text is normally reported as `InvalidState`.  It is reported as
    `Malformed`, although it can be completed to a valid message, when it ends inside
    a number whose beginning is out of range: 400 digits before the missing `e-300`
    (C72_cut_number_example).  Printed messages never contain such numbers.
(bb) The TypeScript declarations promise that `try_parse_forward` returns a
    `ParsedForward` with a method `as_value` and a `Message` in `msg`.  The code returns
    a plain object, with a plain object in `msg`, or `null` (C86_forward,
    C86_no_forward; /repo/wasm/src/message/protocols/routing/mod.rs).
(cc) Nothing is ever compared with a clock: `expires_time` of messages and `exp` and
    `nbf` of prior-DID claims are carried but not enforced (C87_times, C07).  Callers
    must check them.
(dd) A recipient that unwraps forwards, which is the Rust default, asks its DID
    resolver for whatever DID an anonymous sender names as the target of a forward
    (C88_anybody_chooses); and the document of the claimed sender of an envelope is
    asked for before it is known whether the envelope is for us (C88_sender_first).
(ee) A message received as plaintext can turn into somebody's signed message when it is
    packed as plaintext again: escapes keep its text from being taken for an envelope,
    and printing removes them (C92_becomes_envelope).
(ff) The signed message in the metadata can at the same time be an encrypted envelope
    with something else in it: whoever unpacks it alone gets another message, not
    signed (C93_two_faces).  Envelopes are looked for before signatures.
(gg) The JavaScript API reads options, headers, routing keys and algorithm when the
    operation first runs, after the call has returned: an application that reuses and
    changes an options object right after the call changes the operation (C95_late;
    /repo/wasm/src/message/pack_encrypted.rs L30-34).  Messages and texts are taken at
    the call.
(hh) Every panic of an operation called through the uniffi binding costs one of its
    max(8, processors) threads for good.  `wrap_in_forward` panics when `routing_keys`
    is empty (finding (c)), so that many such calls leave a binding that answers
    `Success` to every call and never runs one again (C97_killed, C97_dead).
(ii) Foreign resolvers and result callbacks run on the threads of the uniffi binding.
    If as many as there are threads wait, inside the call, for another operation of
    the binding, all wait for ever (C97_exhausted, C97_exhaustible).
(jj) `unpack` does not compare the `to` header of the message with the keys it was
    encrypted for.  A signed message that was encrypted for one party can be encrypted
    by that party for another, who sees it as encrypted for them and signed by the
    signer (C98_redirected); only the application can compare `to`.  Authenticated
    encryption does not have this problem (C98_meant).
(kk) With an anonymous layer around an authenticated one the reported recipient keys
    are those of the outer layer, which anybody can add for other keys of the receiver
    (C98_relabelled; a TODO in /repo/src/message/unpack/authcrypt.rs L110-114).
(ll) The TypeScript documentation of `IFromPrior`
    (/repo/wasm/src/message/from_prior/mod.rs L60-69) calls `iss` the new DID and
    `sub` the prior one.  The code has it the other way: the keys of `iss` sign, and
    packing a message requires `sub` to be its `from`
    (/repo/src/message/pack_plaintext.rs L55-62).  The model follows the code.

(mm) `expect_decrypt_by_all_keys` does not compare what the keys open
    (/repo/src/message/unpack/anoncrypt.rs L81-167): each success overwrites the
    payload of the one before.  The wrapped content keys of the recipients need not
    be the same key, and neither A256GCM nor XC20P commits to its key, so a sender
    can write an anonymous envelope that two keys of a receiver open to two different
    messages; the last one is returned (C101_two_faced).  With a committing cipher
    this cannot happen (C101_same, C101_all_keys).

(nn) Nothing is padded (/repo/src/jwe/encrypt.rs L69-92): the size of a packed message
    tells the length of the message up to the block size of the cipher (C102_told).
(oo) The signer's key id is in the unprotected header of a signed message
    (/repo/src/jws/sign.rs L18-49, /repo/src/jws/envelope.rs L20-33) and `unpack`
    takes it from there (/repo/src/message/unpack/sign.rs L48-81).  Whoever lists the
    signer's public key in a document can have the message reported as signed by a key id
    of that document (C107_taken_over).  An application must compare `sign_from`
    with `from`; `unpack` does not.

(pp) Neither `pack_signed` nor `FromPrior::pack` looks at the verification
    method of the key it signs with: only the list of authentication keys
    is read from the document, and the key itself comes from the secrets
    resolver (/repo/src/message/pack_signed.rs L61-95,
    /repo/src/message/from_prior/pack.rs L56-115).  If the method is missing
    or is of another type, for example after a rotation under the same key
    id, packing succeeds and every receiver refuses the text.  Proved:
    `C110_signed`, `C110_unpublished`, `C110_other_type`.

(qq) The library keeps no record of the texts it has accepted, and no
    operation takes one: `unpack` accepts a signed, encrypted or forwarded
    text as often as it is presented, also after its `expires_time`
    (/repo/src/message/unpack/mod.rs L53-125).  Callers have to compare
    message ids themselves.  Proved: `C112_replay`.

(rr) The text of an envelope is not protected.  Anybody on the way can
    add white space, reorder members or add members of their own
    (/repo/src/jwe/envelope.rs L6-25, /repo/src/jws/envelope.rs L8-33:
    unknown members are ignored), and the receiver unpacks the same message
    with the same metadata (C113).  A receiver that compares texts, or
    hashes of texts, does not recognise a message that comes twice, and
    `signed_message` in the metadata (/repo/src/message/unpack/sign.rs
    L13-151) quotes a text that anybody can rewrite without breaking the
    signature.  Proved: `C113_encrypted`, `C113_signed`, `C113_longer`.

(ss) Forwarding changes the text that is forwarded.  It is read as a JSON
    value (/repo/src/protocols/routing/mod.rs L146-149) and printed again
    (/repo/src/message/unpack/mod.rs L143-146), which sorts members, drops
    all but the last of equal names and removes needless escapes.  Nothing
    that was an envelope is lost (C114), but a text that the library
    refuses when it is given directly, because the fields of envelopes are
    borrowed strings (/repo/src/jwe/envelope.rs L8-25) and one of its
    characters is written as an escape, is accepted when it comes in a
    forward; and so is a message with two ids, of which the last one
    remains, where a check before forwarding may have looked at the first.
    Proved: `C114_encrypted`, `C114_signed`, `C114_exact`, `C114_healed`,
    `C114_repeated`.

(tt) More secrets can make packing fail.  `pack_signed` and
    `FromPrior::pack` take the first key that `find_secrets` reports
    (/repo/src/message/pack_signed.rs L78-95): if the secret of that key is
    of a type the library does not support they fail, although a later key
    would do.  Encryption by a sender asks for the verification methods of
    all keys that were found (/repo/src/message/pack_encrypted/authcrypt.rs
    L81-99), also of those that will not be chosen, so one listed key
    without a method makes it fail as soon as there is a secret for it.
    Proved: `C118_more_can_hurt`.

## 6. Trusted base

* Lean's kernel.  No axiom is added; no `sorry`, `admit`, `native_decide`,
  `bv_decide`.
* The axioms of each theorem are listed below; they are among `propext`,
  `Classical.choice` and `Quot.sound`.
* That the model follows the code; each definition cites its source lines.
* That serde_json, serde, serde_enum_str, base64 0.13, bs58 0.4 and varint 0.9
  behave as modelled.
* For round trips only: the laws in `Crypto.Lawful`.  For C42, C83, C85
  and C107_issuer only: the ideal primitives stated in their hypotheses.  For the cuts of
  plaintext messages (C72) only: `FloatCuts`, a fact about how doubles are printed.

Axioms per theorem:

<!-- axioms -->
* none: C52_attachment_start, C60_error_names, C60_names_differ, C91_anywhere.
* `propext`: C20_dots, C26_short, C28_short, C28_wrap_empty, C29_masked, C41_inverse,
  C44_not_base58btc, C46_cases, C46_fragment, C46_no_fragment, C47_unsupported,
  C61_silent, C62_never, C62_occur_reading, C62_occur_secrets, C71_url_looked_up,
  C82_sign_layer, C86_packed, C90_runs, C91_begins, C92_drift, C95_runs,
  C98_relabelled.
* `propext, Quot.sound`: C100_js, C100_js_bad, C103_wrapped, C104_by_hand,
  C104_stages, C105_prior, C110_issued, C111_encrypted, C111_forward, C111_plaintext,
  C111_prior, C111_prior_unpack, C111_signed, C111_unpack, C14_not_checked,
  C16_absent, C16_not_checked, C16_signed_for_another, C19_mismatch, C20_order,
  C21_one_signature, C23_unknown_enc, C29_from_prior_pack, C29_wrap, C30_pack_signed,
  C31_addressing, C32_from_prior_asks, C32_wrap, C36_wire, C37_chain, C37_recursive,
  C38_selection, C38_spec, C39_forwarding, C40_no_forward, C43_alphabet,
  C43_canonical, C43_decode_encode, C43_exact, C43_unpadded_unique, C46_is_did,
  C47_method, C47_secret, C49_key_type_shows, C52_attachment_builder,
  C52_from_prior_builder, C53_consistent, C53_find_secrets, C53_get_secret,
  C53_resolve, C53_uniffi, C53_uniffi_delivered, C54_collision_not_preserved,
  C54_read, C59_delivered, C59_dropped, C59_first, C59_no_effect, C59_waits,
  C60_answer, C62_anonymous, C62_encrypted, C62_from_prior_pack,
  C62_from_prior_unpack, C62_plaintext, C62_signed, C62_unpack, C62_wrap,
  C63_encrypted, C63_from_prior_pack, C63_from_prior_unpack, C63_plaintext,
  C63_signed, C63_wrap, C65_writable, C69_bad_options, C69_bad_pack_options,
  C69_pack_encrypted, C69_read, C69_unpack, C71_issue, C71_wrap, C78_type,
  C83_packs_prior, C86_signed, C90_late, C90_once, C90_possible, C90_separate,
  C90_twice, C90_unchanged, C92_becomes_envelope, C93_two_faces, C95_answers,
  C95_late, C95_once, C95_operation, C95_realised, C95_waits, C99_deadlock.
* `propext, Classical.choice, Quot.sound`: C01_no_prior, C01_plaintext_roundtrip,
  C02_signed_roundtrip, C03_anoncrypt_roundtrip, C04_authcrypt_roundtrip,
  C05_protect_sender_roundtrip, C06_sign_anoncrypt_roundtrip,
  C06_sign_authcrypt_roundtrip, C07_from_prior_roundtrip, C08_each_hop,
  C08_end_to_end, C09_option_off, C09_unwrapped, C100_between, C100_uniffi,
  C101_all_keys, C101_same, C101_two_faced, C102_encrypted, C102_same, C102_signed,
  C102_told, C102_wrapped, C103_packed, C105_encrypted, C105_signed, C105_tells,
  C105_within, C105_wrapped, C106_journey, C106_plaintext, C106_prior, C106_signed,
  C107_issuer, C107_taken_over, C108_each_device, C108_first_only, C108_more_can_hurt,
  C109_issuer_gone, C109_kept, C109_never_reported, C109_never_used, C109_same,
  C109_sender_gone, C109_signer_gone, C10_sender, C110_anonymous, C110_authenticated,
  C110_other_type, C110_same, C110_signed, C110_unpublished, C112_every_prior,
  C112_prior, C112_prior_alone, C112_replay, C112_same_message, C112_signed,
  C112_signs, C112_signs_only, C112_signs_prior, C113_encrypted, C113_longer,
  C113_order, C113_signed, C113_white_space, C114_encrypted, C114_exact, C114_healed,
  C114_journey, C114_repeated, C114_signed, C114_unpacked, C115_answers,
  C115_document, C115_message, C115_not_envelopes, C115_pack, C115_pack_options,
  C115_resolvers, C115_secret, C115_unpack_options, C115_wrapping, C116_relies,
  C116_sent, C116_wraps_only, C117_direct, C117_forwarded, C117_outsider,
  C117_through, C117_wrapped, C118_fewer, C118_listed_only, C118_more_can_hurt,
  C118_no_secrets, C119_inside_anon, C119_inside_auth, C119_order, C119_other_orders,
  C119_signature_innermost, C119_signed_envelope, C11_reported, C11_signer,
  C12_consistent, C13_from_prior, C14_any_issuer, C14_honest_partial, C15_issue,
  C16_packed_partial, C17_plaintext, C18_one_did, C19_anonymous, C19_sender, C20_apv,
  C20_binding, C22_algorithm, C22_mismatch, C22_unknown, C23_anon, C23_auth,
  C23_auth_enc, C23_unknown_alg, C24_all_anon, C24_auth, C24_first_anon,
  C24_one_secret_per_search, C25_ends, C25_no_limit, C25_questions, C26_unpack,
  C27_multicodec, C27_public, C27_secret, C28_anonymous, C28_encrypted,
  C28_from_prior_pack, C28_from_prior_unpack, C28_plaintext, C28_signed, C28_wrap,
  C29_encrypted, C29_from_prior_unpack, C29_plaintext, C29_signed, C29_unpack,
  C30_pack_encrypted, C32_anonymous, C32_from_prior_unpack, C32_pack_asks,
  C32_plaintext, C32_signed_asks, C32_unencrypted, C32_unpack_asks, C33_signing_key,
  C34_failures, C34_recipients, C35_incompatible, C35_negotiation, C36_recipient_did,
  C36_recipient_is_to, C41_only, C41_written, C42_boundary, C42_sealed, C42_tampering,
  C43_base64url, C44_accepted, C44_base58btc, C44_canonical, C44_decodes,
  C44_noncanonical, C44_refused, C44_wrong_codec, C45_ed25519_public,
  C45_ed25519_secret, C45_x25519_public, C45_x25519_secret, C48_content, C49_sender,
  C50_envelope, C50_forwarded, C50_signed, C51_message_builder, C54_collision_moved,
  C54_collision_rejected, C54_preserved, C55_mimicry, C55_ordinary_partial,
  C56_deep_body, C56_integers, C56_round_trip, C56_too_deep, C57_issuer,
  C57_recipient, C57_sender, C57_signer, C58_env, C58_function, C60_filter,
  C60_uniffi, C60_wasm, C61_encrypted, C61_from_prior_pack, C61_from_prior_unpack,
  C61_honest, C61_kinds, C61_no_io, C61_plaintext, C61_signed, C61_unpack, C61_wrap,
  C63_unpack, C64_header_pairs, C64_pack_empty, C64_pack_options,
  C64_unknown_algorithm, C64_unpack_empty, C64_unpack_options, C65_round_trip,
  C66_round_trip, C67_endpoint, C67_private_key, C67_public_key, C67_unknown_method,
  C67_unknown_service, C68_pack_metadata, C68_unpack_metadata, C69_wrap,
  C70_encrypted, C70_plaintext, C70_reading, C70_signed, C71_bare, C71_encrypted,
  C71_plaintext, C71_signed, C72_cut, C72_cut_number_example, C72_cut_numbers,
  C72_encrypted_cut, C72_noticed, C72_one_content, C72_plaintext_cut, C72_reads_json,
  C72_refuses, C72_signed_cut, C72_unpack_cut, C72_unpack_json, C72_unpack_noticed,
  C73_accepts, C73_packed, C73_reads, C73_unpacked, C74_claims, C74_encrypted,
  C74_headers, C74_plain, C74_refused, C74_signed, C75_answers, C75_document,
  C75_secret, C76_pack_options, C76_unpack_options, C77_own_key, C77_packed,
  C77_wrapped, C78_method, C78_method_total, C78_secret, C78_secret_total, C78_use,
  C79_determined, C79_encrypted, C79_encrypted_exact, C79_plaintext, C79_prior_issued,
  C79_prior_read, C79_signed, C79_signed_exact, C79_wrapped, C80_anonymous,
  C80_authenticated, C80_forwarded, C80_message_irrelevant, C80_signed, C80_wrapped,
  C81_determined, C81_exact, C81_one_way, C81_unpack, C82_accepted, C82_anon_layer,
  C82_auth_layer, C83_packs_signed, C83_prior, C83_signed, C83_signed_reading,
  C84_message_is_no_prior, C84_prior_is_no_message, C85_authenticated, C85_packs,
  C86_claims, C86_claims_value, C86_forward, C86_json, C86_json_back, C86_message,
  C86_message_accepts, C86_message_refuses, C86_no_forward, C86_signed_metadata,
  C86_value, C86_value_tells, C87_content, C87_times, C88_anybody_chooses, C88_exact,
  C88_few, C88_for_others, C88_questions, C88_sender_first, C88_target, C89_anonymous,
  C89_content, C89_documents, C89_encrypted, C89_encrypted_exact, C89_few,
  C89_illegal, C89_plaintext, C89_prior_issued, C89_prior_read, C89_signed,
  C89_success, C89_wrapped, C89_wrapped_exact, C90_can_end, C90_faithful,
  C90_operation, C90_realised, C90_waits, C91_documents, C91_pack, C91_uniffi,
  C91_uniffi_pack, C91_uniffi_unpack, C91_unpack, C92_document, C92_encrypted,
  C92_from_prior, C92_plaintext, C92_secret, C92_signed, C93_evidence,
  C93_own_signatures, C94_env, C94_lost, C94_nonsense, C94_operations, C94_roundTrip,
  C94_same, C95_calls, C95_separate, C96_forged, C96_protected, C96_same, C97_all_end,
  C97_alone, C97_dead, C97_exhausted, C97_exhaustible, C97_kept, C97_killed,
  C97_operation, C97_progress, C97_quiet, C97_same, C97_size, C97_threads, C97_woken,
  C98_meant, C98_redirected, C98_sent_on, C98_unnoticed, C99_ends, C99_nested.
<!-- end axioms -->

## 7. Layout

* `lean/Verif/Model`: the code.
* `lean/Verif/Spec`: vocabulary of the statements (evidence, worlds, laws,
  selection and routing specifications), independent of the proofs.
* `lean/Verif/Props`: one theorem per claim, named after the property, each
  followed by an `example` that meets its hypotheses in a non-trivial case.
* `lean/Verif/Proofs`: lemmas.
* `lean/Verif/Vectors`: tests of the model (not theorems about it).

## 8. How the theorems were tested

Wrong programs are made in a scratch copy: one definition of the model is edited
the way a bug would change it, then the copy is rebuilt.  A lemma whose proof
fails is replaced by `sorry`, and the build is repeated until it succeeds; a
theorem counts as failed when its own proof breaks or when it then depends on
`sorryAx`.  `seeded/LOG.jsonl` has one line per attempt with the edited definition,
the edit, the claim it breaks, the theorems that failed, and the theorems that were
tightened because of it.

What these attempts do and do not show:

* To save time, later batches were run on a copy without the examples and with only
  the modules that bear on the claim.  Theorems in other modules were not tried.
* Some batches (ids P of the second series, U and J) made a single build.  There the
  properties listed are those that depend on a lemma that failed.
* A proof that breaks does not by itself show that its statement became false: the
  script may only need a change.  What an attempt shows with certainty is the opposite
  case, a theorem that still proves although its claim is false.
* An earlier version of the log used some ids twice, which gave four entries the claim
  and note of another edit and left three entries out.  It also did not count theorems
  stated with `let`.  Both are corrected.

How well the model agrees with the code was tested too, since the code itself cannot
be run here.  `lean/Verif/Vectors/Data.lean` holds the documents, secrets and recorded
messages of `src/test_vectors`, and the results that the real primitives (X25519,
P-256, ECDH-ES and ECDH-1PU, AES key wrap, XC20P, A256CBC-HS512, EdDSA, ES256, ES256K,
SHA-256) give on them, computed beforehand by independent implementations.
`Tests.lean` runs on the model the library's own unit tests that use these recorded
messages (86 cases: reading of plain, signed and encrypted messages, malformed
messages, DID rotation, error kinds of signing).  `Packing.lean` runs 31 cases of the tests in
`pack_encrypted/mod.rs` with the toy primitives, which shows which keys are selected
and which error kinds are returned.  All agree with what the authors expect.  The other 57
packing cases, with up to three mediators, agree when evaluated, but they take the kernel
too much memory and are left out.  These are tests of the model, not proofs of properties:
each is about one message.
