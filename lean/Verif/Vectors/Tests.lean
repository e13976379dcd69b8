import Verif.Vectors.Data

/-!
# Tests of the model with the test vectors of the library

The unit tests of the library that use recorded messages, run on the model: each example names the test function in /repo and the
number of the case in it.  They show that the model agrees with what the authors of the library recorded; they are no properties in the sense of
`properties.jsonl`, each being about one message only.  (Errors are compared by kind, their texts are not modelled.)
-/

set_option autoImplicit false
set_option maxRecDepth 1000000

namespace DIDComm.Vectors

open World

/-- `ALICE_DID` — /repo/src/test_vectors/common.rs L3. -/
def aliceDid : Str := b!"did:example:alice"
/-- `BOB_DID` — /repo/src/test_vectors/common.rs L4. -/
def bobDid : Str := b!"did:example:bob"
/-- `CHARLIE_DID` — /repo/src/test_vectors/common.rs L5. -/
def charlieDid : Str := b!"did:example:charlie"

/-- `_message` — /repo/src/test_vectors/message.rs L126-137. -/
def message : MessageBuilder :=
  ((((MessageBuilder.new b!"1234567890" b!"http://example.com/protocols/lets_do_lunch/1.0/proposal"
    (.obj [(b!"messagespecificattribute", .str b!"and its value")])).setFrom aliceDid).addTo bobDid).setCreatedTime 1516269022).setExpiresTime 1516385931

/-- `MESSAGE_SIMPLE` — /repo/src/test_vectors/message.rs L8. -/
def messageSimple : Message := message.finalize

/-- `MESSAGE_MINIMAL` — /repo/src/test_vectors/message.rs L12-17. -/
def messageMinimal : Message :=
  (MessageBuilder.new b!"1234567890" b!"http://example.com/protocols/lets_do_lunch/1.0/proposal" (.obj [])).finalize

/-- `MESSAGE_FROM_PRIOR_FULL` — /repo/src/test_vectors/message.rs L21-23. -/
def messageFromPriorFull : Message := (message.setFromPrior fromPriorJwtFull).finalize

/-- `MESSAGE_FROM_PRIOR_MISMATCHED_SUB_AND_FROM` — /repo/src/test_vectors/message.rs L27-39. -/
def messageFromPriorMismatched : Message :=
  ((((((MessageBuilder.new b!"1234567890" b!"http://example.com/protocols/lets_do_lunch/1.0/proposal"
    (.obj [(b!"messagespecificattribute", .str b!"and its value")])).setFrom bobDid).addTo aliceDid).setCreatedTime 1516269022).setExpiresTime
      1516385931).setFromPrior fromPriorJwtFull).finalize

/-- The JSON attachment of /repo/src/test_vectors/message.rs L68 and L79. -/
def jsonAttachment (id : Str) : Attachment :=
  ((AttachmentBuilder.json (.obj [(b!"foo", .str b!"bar"), (b!"links", .arr [.num (.pos 2), .num (.pos 3)])])).setId id).finalize

/-- The base64 attachment of /repo/src/test_vectors/message.rs L45, L82 and L106. -/
def base64Attachment (id : Str) : Attachment := ((AttachmentBuilder.base64 b!"qwerty").setId id).finalize

/-- The attachments by links of /repo/src/test_vectors/message.rs L55, L85, L100 and L109. -/
def linksAttachment (links : List Str) (hash id : Str) : Attachment := ((AttachmentBuilder.links links hash).setId id).finalize

/-- `MESSAGE_ATTACHMENT_BASE64` — /repo/src/test_vectors/message.rs L43-49. -/
def messageAttachmentBase64 : Message := (message.addAttachment (base64Attachment b!"23")).finalize
/-- `MESSAGE_ATTACHMENT_LINKS` — /repo/src/test_vectors/message.rs L53-62. -/
def messageAttachmentLinks : Message := (message.addAttachment (linksAttachment [b!"1", b!"2", b!"3"] b!"qwerty" b!"23")).finalize
/-- `MESSAGE_ATTACHMENT_JSON` — /repo/src/test_vectors/message.rs L66-72. -/
def messageAttachmentJson : Message := (message.addAttachment (jsonAttachment b!"23")).finalize
/-- `MESSAGE_ATTACHMENT_MULTI_1` — /repo/src/test_vectors/message.rs L76-94. -/
def messageAttachmentMulti1 : Message := (message.addAttachments
  [jsonAttachment b!"23", base64Attachment b!"24", linksAttachment [b!"1", b!"2", b!"3"] b!"qwerty" b!"25"]).finalize
/-- `MESSAGE_ATTACHMENT_MULTI_2` — /repo/src/test_vectors/message.rs L98-124. -/
def messageAttachmentMulti2 : Message := (message.addAttachments
  [linksAttachment [b!"1", b!"2", b!"3"] b!"qwerty" b!"23", base64Attachment b!"24",
   linksAttachment [b!"1", b!"2", b!"3", b!"4"] b!"qwerty2" b!"25"]).finalize

/-- `FROM_PRIOR_FULL` and its invalid variants — /repo/src/test_vectors/from_prior.rs L15-77. -/
def fromPriorOf (iss sub : Str) : FromPrior :=
  ((((((FromPriorBuilder.new iss sub).setAud b!"123").setExp 1234).setNbf 12345).setIat 123456).setJti b!"dfg").finalize

/-- The resolvers of most tests — /repo/src/message/unpack/mod.rs L2092-2098. -/
def bobEnv : Env := envOf [aliceDidDoc, bobDidDoc, charlieDidDoc] bobSecrets

/-- The resolvers of /repo/src/message/from_prior/pack.rs L209-212. -/
def charlieEnv : Env := envOf [aliceDidDoc, charlieDidDoc] charlieRotatedToAliceSecrets

/-- The resolvers of /repo/src/message/pack_signed.rs L170-171 and from_prior/pack.rs L301-303. -/
def aliceEnv : Env := envOf [aliceDidDoc, charlieDidDoc] aliceSecrets

/-- `_verify_unpack` — /repo/src/message/unpack/mod.rs L2091-2111.  Messages are compared by their JSON, which determines them. -/
def verifyUnpack (text : Str) (m : Message) (md : UnpackMetadata) : Bool :=
  test bobEnv (unpack crypto text {}) (fun x => decide (x.1.toJson.print = m.toJson.print ∧ x.2 = md))

/-- `_verify_unpack_malformed` — /repo/src/message/unpack/mod.rs L2142-2144. -/
def verifyMalformed (text : Str) : Bool := testError bobEnv (unpack crypto text {}) (.kind .malformed)

/-- `serde_json::from_str` to a `Value` that is an object — /repo/src/test_vectors/common.rs L8-9. -/
def members (text : Str) : List (Str × Value) :=
  match fromJson (toValue crypto.f64) text with
  | .ok (.obj m) => m
  | _ => []

/-- `update_field` — /repo/src/test_vectors/common.rs L7-12. -/
def updateField (text name value : Str) : Str := (Value.obj (btInsert name (.str value) (members text))).print

/-- `remove_field` — /repo/src/test_vectors/common.rs L14-19. -/
def removeField (text name : Str) : Str := (Value.obj ((members text).filter (fun e => e.1 != name))).print

/-- The protected header, decoded — /repo/src/test_vectors/common.rs L25-31, L46-52. -/
def protectedOf (text : Str) : Str := ((((Value.obj (members text)).getStr b!"protected").bind B64.decode)).getD []

/-- `update_protected_field` — /repo/src/test_vectors/common.rs L21-40. -/
def updateProtectedField (text name value : Str) : Str :=
  updateField text b!"protected" (B64.encode (updateField (protectedOf text) name value))

/-- `remove_protected_field` — /repo/src/test_vectors/common.rs L42-61. -/
def removeProtectedField (text name : Str) : Str :=
  updateField text b!"protected" (B64.encode (removeField (protectedOf text) name))

/-- `_pack_plaintext_works` — /repo/src/message/pack_plaintext.rs L113-125: the texts are equal as JSON values. -/
def verifyPackPlaintext (m : Message) (text : Str) : Bool :=
  test (envOf [aliceDidDoc] []) (packPlaintext crypto m) (fun out => decide ((Value.obj (members out)).print = (Value.obj (members text)).print))

-- `unpack_works_plaintext`, case 1 — /repo/src/message/unpack/mod.rs L297-359
example : verifyUnpack plaintextMsgSimple messageSimple {} = true := by decide +kernel

-- `unpack_works_plaintext`, case 2 — /repo/src/message/unpack/mod.rs L297-359
example : verifyUnpack plaintextMsgSimpleNoTyp messageSimple {} = true := by decide +kernel

-- `unpack_works_plaintext`, case 3 — /repo/src/message/unpack/mod.rs L297-359
example : verifyUnpack plaintextMsgMinimal messageMinimal {} = true := by decide +kernel

-- `unpack_works_plaintext`, case 4 — /repo/src/message/unpack/mod.rs L297-359
example : verifyUnpack plaintextMsgAttachmentBase64 messageAttachmentBase64 {} = true := by decide +kernel

-- `unpack_works_plaintext`, case 5 — /repo/src/message/unpack/mod.rs L297-359
example : verifyUnpack plaintextMsgAttachmentJson messageAttachmentJson {} = true := by decide +kernel

-- `unpack_works_plaintext`, case 6 — /repo/src/message/unpack/mod.rs L297-359
example : verifyUnpack plaintextMsgAttachmentLinks messageAttachmentLinks {} = true := by decide +kernel

-- `unpack_works_plaintext`, case 7 — /repo/src/message/unpack/mod.rs L297-359
example : verifyUnpack plaintextMsgAttachmentMulti1 messageAttachmentMulti1 {} = true := by decide +kernel

-- `unpack_works_plaintext`, case 8 — /repo/src/message/unpack/mod.rs L297-359
example : verifyUnpack plaintextMsgAttachmentMulti2 messageAttachmentMulti2 {} = true := by decide +kernel

-- `unpack_works_signed`, case 1 — /repo/src/message/unpack/mod.rs L404-457
example : verifyUnpack signedMsgAliceKey1 messageSimple { authenticated := true, nonRepudiation := true, signFrom := some b!"did:example:alice#key-1", signAlg := some .edDSA, signedMessage := some signedMsgAliceKey1 } = true := by decide +kernel

-- `unpack_works_signed`, case 2 — /repo/src/message/unpack/mod.rs L404-457
example : verifyUnpack signedMsgAliceKey2 messageSimple { authenticated := true, nonRepudiation := true, signFrom := some b!"did:example:alice#key-2", signAlg := some .es256, signedMessage := some signedMsgAliceKey2 } = true := by decide +kernel

-- `unpack_works_signed`, case 3 — /repo/src/message/unpack/mod.rs L404-457
example : verifyUnpack signedMsgAliceKey3 messageSimple { authenticated := true, nonRepudiation := true, signFrom := some b!"did:example:alice#key-3", signAlg := some .es256k, signedMessage := some signedMsgAliceKey3 } = true := by decide +kernel

-- `unpack_works_anoncrypt`, case 1 — /repo/src/message/unpack/mod.rs L532-581
example : verifyUnpack encryptedMsgAnonXc20p1 messageSimple { anonymousSender := true, encrypted := true, encAlgAnon := some .xc20pEcdhEsA256kw, encryptedToKids := some [b!"did:example:bob#key-x25519-1", b!"did:example:bob#key-x25519-2", b!"did:example:bob#key-x25519-3"] } = true := by decide +kernel

-- `unpack_works_anoncrypt`, case 2 — /repo/src/message/unpack/mod.rs L532-581
example : verifyUnpack encryptedMsgAnonXc20p2 messageSimple { anonymousSender := true, encrypted := true, encAlgAnon := some .xc20pEcdhEsA256kw, encryptedToKids := some [b!"did:example:bob#key-p256-1", b!"did:example:bob#key-p256-2"] } = true := by decide +kernel

-- `unpack_works_authcrypt`, case 1 — /repo/src/message/unpack/mod.rs L1183-1239
example : verifyUnpack encryptedMsgAuthX25519 messageSimple { authenticated := true, encrypted := true, encAlgAuth := some .a256cbcHs512Ecdh1puA256kw, encryptedFromKid := some b!"did:example:alice#key-x25519-1", encryptedToKids := some [b!"did:example:bob#key-x25519-1", b!"did:example:bob#key-x25519-2", b!"did:example:bob#key-x25519-3"] } = true := by decide +kernel

-- `unpack_works_authcrypt`, case 2 — /repo/src/message/unpack/mod.rs L1183-1239
example : verifyUnpack encryptedMsgAuthP256 messageSimple { authenticated := true, encrypted := true, encAlgAuth := some .a256cbcHs512Ecdh1puA256kw, encryptedFromKid := some b!"did:example:alice#key-p256-1", encryptedToKids := some [b!"did:example:bob#key-p256-1", b!"did:example:bob#key-p256-2"], nonRepudiation := true, signFrom := some b!"did:example:alice#key-1", signAlg := some .edDSA, signedMessage := some encryptedMsgAuthP256Signed } = true := by decide +kernel

-- `unpack_works_invalid_epk_point`, case 1 — /repo/src/message/unpack/mod.rs L1778-1784
example : verifyMalformed invalidEncryptedMsgAnonP256EpkWrongPoint = true := by decide +kernel

-- `unpack_works_malformed_anoncrypt_msg`, case 1 — /repo/src/message/unpack/mod.rs L1787-1847
example : verifyMalformed (updateField encryptedMsgAnonXc20p1 b!"protected" b!"invalid") = true := by decide +kernel

-- `unpack_works_malformed_anoncrypt_msg`, case 2 — /repo/src/message/unpack/mod.rs L1787-1847
example : verifyMalformed (removeField encryptedMsgAnonXc20p1 b!"protected") = true := by decide +kernel

-- `unpack_works_malformed_anoncrypt_msg`, case 3 — /repo/src/message/unpack/mod.rs L1787-1847
example : verifyMalformed (updateField encryptedMsgAnonXc20p1 b!"iv" b!"invalid") = true := by decide +kernel

-- `unpack_works_malformed_anoncrypt_msg`, case 4 — /repo/src/message/unpack/mod.rs L1787-1847
example : verifyMalformed (removeField encryptedMsgAnonXc20p1 b!"iv") = true := by decide +kernel

-- `unpack_works_malformed_anoncrypt_msg`, case 5 — /repo/src/message/unpack/mod.rs L1787-1847
example : verifyMalformed (updateField encryptedMsgAnonXc20p1 b!"ciphertext" b!"invalid") = true := by decide +kernel

-- `unpack_works_malformed_anoncrypt_msg`, case 6 — /repo/src/message/unpack/mod.rs L1787-1847
example : verifyMalformed (removeField encryptedMsgAnonXc20p1 b!"ciphertext") = true := by decide +kernel

-- `unpack_works_malformed_anoncrypt_msg`, case 7 — /repo/src/message/unpack/mod.rs L1787-1847
example : verifyMalformed (updateField encryptedMsgAnonXc20p1 b!"tag" b!"invalid") = true := by decide +kernel

-- `unpack_works_malformed_anoncrypt_msg`, case 8 — /repo/src/message/unpack/mod.rs L1787-1847
example : verifyMalformed (removeField encryptedMsgAnonXc20p1 b!"tag") = true := by decide +kernel

-- `unpack_works_malformed_anoncrypt_msg`, case 9 — /repo/src/message/unpack/mod.rs L1787-1847
example : verifyMalformed (updateProtectedField encryptedMsgAnonXc20p1 b!"apv" b!"invalid") = true := by decide +kernel

-- `unpack_works_malformed_anoncrypt_msg`, case 10 — /repo/src/message/unpack/mod.rs L1787-1847
example : verifyMalformed (removeProtectedField encryptedMsgAnonXc20p1 b!"apv") = true := by decide +kernel

-- `unpack_works_malformed_authcrypt_msg`, case 1 — /repo/src/message/unpack/mod.rs L1850-1922
example : verifyMalformed (updateField encryptedMsgAuthX25519 b!"protected" b!"invalid") = true := by decide +kernel

-- `unpack_works_malformed_authcrypt_msg`, case 2 — /repo/src/message/unpack/mod.rs L1850-1922
example : verifyMalformed (removeField encryptedMsgAuthX25519 b!"protected") = true := by decide +kernel

-- `unpack_works_malformed_authcrypt_msg`, case 3 — /repo/src/message/unpack/mod.rs L1850-1922
example : verifyMalformed (updateField encryptedMsgAuthX25519 b!"iv" b!"invalid") = true := by decide +kernel

-- `unpack_works_malformed_authcrypt_msg`, case 4 — /repo/src/message/unpack/mod.rs L1850-1922
example : verifyMalformed (removeField encryptedMsgAuthX25519 b!"iv") = true := by decide +kernel

-- `unpack_works_malformed_authcrypt_msg`, case 5 — /repo/src/message/unpack/mod.rs L1850-1922
example : verifyMalformed (updateField encryptedMsgAuthX25519 b!"ciphertext" b!"invalid") = true := by decide +kernel

-- `unpack_works_malformed_authcrypt_msg`, case 6 — /repo/src/message/unpack/mod.rs L1850-1922
example : verifyMalformed (removeField encryptedMsgAuthX25519 b!"ciphertext") = true := by decide +kernel

-- `unpack_works_malformed_authcrypt_msg`, case 7 — /repo/src/message/unpack/mod.rs L1850-1922
example : verifyMalformed (updateField encryptedMsgAuthX25519 b!"tag" b!"invalid") = true := by decide +kernel

-- `unpack_works_malformed_authcrypt_msg`, case 8 — /repo/src/message/unpack/mod.rs L1850-1922
example : verifyMalformed (removeField encryptedMsgAuthX25519 b!"tag") = true := by decide +kernel

-- `unpack_works_malformed_authcrypt_msg`, case 9 — /repo/src/message/unpack/mod.rs L1850-1922
example : verifyMalformed (updateProtectedField encryptedMsgAuthX25519 b!"apv" b!"invalid") = true := by decide +kernel

-- `unpack_works_malformed_authcrypt_msg`, case 10 — /repo/src/message/unpack/mod.rs L1850-1922
example : verifyMalformed (removeProtectedField encryptedMsgAuthX25519 b!"apv") = true := by decide +kernel

-- `unpack_works_malformed_authcrypt_msg`, case 11 — /repo/src/message/unpack/mod.rs L1850-1922
example : verifyMalformed (updateProtectedField encryptedMsgAuthX25519 b!"apu" b!"invalid") = true := by decide +kernel

-- `unpack_works_malformed_authcrypt_msg`, case 12 — /repo/src/message/unpack/mod.rs L1850-1922
example : verifyMalformed (removeProtectedField encryptedMsgAuthX25519 b!"apu") = true := by decide +kernel

-- `unpack_works_malformed_signed_msg`, case 1 — /repo/src/message/unpack/mod.rs L1925-1949
example : verifyMalformed (updateField signedMsgAliceKey1 b!"payload" b!"invalid") = true := by decide +kernel

-- `unpack_works_malformed_signed_msg`, case 2 — /repo/src/message/unpack/mod.rs L1925-1949
example : verifyMalformed (removeField signedMsgAliceKey1 b!"payload") = true := by decide +kernel

-- `unpack_works_malformed_signed_msg`, case 3 — /repo/src/message/unpack/mod.rs L1925-1949
example : verifyMalformed (updateField signedMsgAliceKey1 b!"signatures" b!"invalid") = true := by decide +kernel

-- `unpack_works_malformed_signed_msg`, case 4 — /repo/src/message/unpack/mod.rs L1925-1949
example : verifyMalformed (removeField signedMsgAliceKey1 b!"signatures") = true := by decide +kernel

-- `unpack_works_malformed_plaintext_msg`, case 1 — /repo/src/message/unpack/mod.rs L1952-2042
example : verifyMalformed invalidPlaintextMsgEmpty = true := by decide +kernel

-- `unpack_works_malformed_plaintext_msg`, case 2 — /repo/src/message/unpack/mod.rs L1952-2042
example : verifyMalformed invalidPlaintextMsgString = true := by decide +kernel

-- `unpack_works_malformed_plaintext_msg`, case 3 — /repo/src/message/unpack/mod.rs L1952-2042
example : verifyMalformed invalidPlaintextMsgNoId = true := by decide +kernel

-- `unpack_works_malformed_plaintext_msg`, case 4 — /repo/src/message/unpack/mod.rs L1952-2042
example : verifyMalformed invalidPlaintextMsgNoType = true := by decide +kernel

-- `unpack_works_malformed_plaintext_msg`, case 5 — /repo/src/message/unpack/mod.rs L1952-2042
example : verifyMalformed invalidPlaintextMsgNoBody = true := by decide +kernel

-- `unpack_works_malformed_plaintext_msg`, case 6 — /repo/src/message/unpack/mod.rs L1952-2042
example : verifyMalformed invalidPlaintextMsgWrongTyp = true := by decide +kernel

-- `unpack_works_malformed_plaintext_msg`, case 7 — /repo/src/message/unpack/mod.rs L1952-2042
example : verifyMalformed invalidPlaintextMsgEmptyAttachments = true := by decide +kernel

-- `unpack_works_malformed_plaintext_msg`, case 8 — /repo/src/message/unpack/mod.rs L1952-2042
example : verifyMalformed invalidPlaintextMsgAttachmentsNoData = true := by decide +kernel

-- `unpack_works_malformed_plaintext_msg`, case 9 — /repo/src/message/unpack/mod.rs L1952-2042
example : verifyMalformed invalidPlaintextMsgAttachmentsEmptyData = true := by decide +kernel

-- `unpack_works_malformed_plaintext_msg`, case 10 — /repo/src/message/unpack/mod.rs L1952-2042
example : verifyMalformed invalidPlaintextMsgAttachmentsLinksNoHash = true := by decide +kernel

-- `unpack_works_malformed_plaintext_msg`, case 11 — /repo/src/message/unpack/mod.rs L1952-2042
example : verifyMalformed invalidPlaintextMsgAttachmentsAsString = true := by decide +kernel

-- `unpack_works_malformed_plaintext_msg`, case 12 — /repo/src/message/unpack/mod.rs L1952-2042
example : verifyMalformed invalidPlaintextMsgAttachmentsAsIntArray = true := by decide +kernel

-- `unpack_works_malformed_plaintext_msg`, case 13 — /repo/src/message/unpack/mod.rs L1952-2042
example : verifyMalformed invalidPlaintextMsgAttachmentsWrongData = true := by decide +kernel

-- `unpack_works_malformed_plaintext_msg`, case 14 — /repo/src/message/unpack/mod.rs L1952-2042
example : verifyMalformed invalidPlaintextMsgAttachmentsWrongId = true := by decide +kernel

-- `unpack_works_malformed_plaintext_msg`, case 15 — /repo/src/message/unpack/mod.rs L1952-2042
example : verifyMalformed invalidPlaintextMsgAttachmentsNullData = true := by decide +kernel

-- `unpack_plaintext_works_from_prior`, case 1 — /repo/src/message/unpack/mod.rs L2045-2069
example : verifyUnpack plaintextFromPrior messageFromPriorFull { fromPriorIssuerKid := some b!"did:example:charlie#key-1", fromPrior := some (fromPriorOf charlieDid aliceDid) } = true := by decide +kernel

-- `unpack_plaintext_works_invalid_from_prior`, case 1 — /repo/src/message/unpack/mod.rs L2072-2089
example : verifyMalformed plaintextInvalidFromPrior = true := by decide +kernel

-- `unpack_plaintext_works_invalid_from_prior`, case 2 — /repo/src/message/unpack/mod.rs L2072-2089
example : verifyMalformed plaintextFromPriorInvalidSignature = true := by decide +kernel

-- `pack_plaintext_works`, case 1 — /repo/src/message/pack_plaintext.rs L92-126
example : verifyPackPlaintext messageSimple plaintextMsgSimple = true := by decide +kernel

-- `pack_plaintext_works`, case 2 — /repo/src/message/pack_plaintext.rs L92-126
example : verifyPackPlaintext messageMinimal plaintextMsgMinimal = true := by decide +kernel

-- `pack_plaintext_works`, case 3 — /repo/src/message/pack_plaintext.rs L92-126
example : verifyPackPlaintext messageAttachmentBase64 plaintextMsgAttachmentBase64 = true := by decide +kernel

-- `pack_plaintext_works`, case 4 — /repo/src/message/pack_plaintext.rs L92-126
example : verifyPackPlaintext messageAttachmentJson plaintextMsgAttachmentJson = true := by decide +kernel

-- `pack_plaintext_works`, case 5 — /repo/src/message/pack_plaintext.rs L92-126
example : verifyPackPlaintext messageAttachmentLinks plaintextMsgAttachmentLinks = true := by decide +kernel

-- `pack_plaintext_works`, case 6 — /repo/src/message/pack_plaintext.rs L92-126
example : verifyPackPlaintext messageAttachmentMulti1 plaintextMsgAttachmentMulti1 = true := by decide +kernel

-- `pack_plaintext_works`, case 7 — /repo/src/message/pack_plaintext.rs L92-126
example : verifyPackPlaintext messageAttachmentMulti2 plaintextMsgAttachmentMulti2 = true := by decide +kernel

-- `pack_plaintext_works_from_prior`, case 1 — /repo/src/message/pack_plaintext.rs L128-156
example : test bobEnv (do unpack crypto (← packPlaintext crypto messageFromPriorFull) {}) (fun x => decide (x.1.toJson.print =
    messageFromPriorFull.toJson.print ∧ x.2.fromPriorIssuerKid = some b!"did:example:charlie#key-1" ∧ x.2.fromPrior = some (fromPriorOf
    charlieDid aliceDid))) = true := by decide +kernel

-- `pack_plaintext_works_mismatched_from_prior_sub_and_message_from`, case 1 — /repo/src/message/pack_plaintext.rs L159-178
example : testError bobEnv (packPlaintext crypto messageFromPriorMismatched) (.kind .malformed) = true := by decide +kernel

-- `from_prior_unpack_works`, case 1 — /repo/src/message/from_prior/unpack.rs L155-165
example : test (envOf [aliceDidDoc, charlieDidDoc] []) (FromPrior.unpack crypto fromPriorJwtFull) (fun x => decide (x = (fromPriorOf charlieDid
    aliceDid, b!"did:example:charlie#key-1"))) = true := by decide +kernel

-- `from_prior_unpack_works_invalid`, case 1 — /repo/src/message/from_prior/unpack.rs L168-194
example : testError (envOf [aliceDidDoc, charlieDidDoc] []) (FromPrior.unpack crypto fromPriorJwtInvalid) (.kind .malformed) = true := by decide +kernel

-- `from_prior_unpack_works_invalid`, case 2 — /repo/src/message/from_prior/unpack.rs L168-194
example : testError (envOf [aliceDidDoc, charlieDidDoc] []) (FromPrior.unpack crypto fromPriorJwtInvalidSignature) (.kind .malformed) = true := by decide +kernel

-- `from_prior_pack_works_wrong_issuer_kid`, case 1 — /repo/src/message/from_prior/pack.rs L270-313
example : testError aliceEnv ((fromPriorOf charlieDid aliceDid).pack crypto (some b!"did:example:alice#key-1")) (.kind .illegalArgument) = true := by decide +kernel

-- `from_prior_pack_works_wrong_issuer_kid`, case 2 — /repo/src/message/from_prior/pack.rs L270-313
example : testError aliceEnv ((fromPriorOf charlieDid aliceDid).pack crypto (some aliceDid)) (.kind .illegalArgument) = true := by decide +kernel

-- `from_prior_pack_works_wrong_issuer_kid`, case 3 — /repo/src/message/from_prior/pack.rs L270-313
example : testError aliceEnv ((fromPriorOf charlieDid aliceDid).pack crypto (some b!"invalid")) (.kind .illegalArgument) = true := by decide +kernel

-- `from_prior_pack_works_invalid`, case 1 — /repo/src/message/from_prior/pack.rs L316-378
example : testError charlieEnv ((fromPriorOf b!"invalid" aliceDid).pack crypto none) (.kind .malformed) = true := by decide +kernel

-- `from_prior_pack_works_invalid`, case 2 — /repo/src/message/from_prior/pack.rs L316-378
example : testError charlieEnv ((fromPriorOf b!"did:example:charlie#key-1" aliceDid).pack crypto none) (.kind .malformed) = true := by decide +kernel

-- `from_prior_pack_works_invalid`, case 3 — /repo/src/message/from_prior/pack.rs L316-378
example : testError charlieEnv ((fromPriorOf charlieDid b!"invalid").pack crypto none) (.kind .malformed) = true := by decide +kernel

-- `from_prior_pack_works_invalid`, case 4 — /repo/src/message/from_prior/pack.rs L316-378
example : testError charlieEnv ((fromPriorOf charlieDid b!"did:example:alice#key-1").pack crypto none) (.kind .malformed) = true := by decide +kernel

-- `from_prior_pack_works_invalid`, case 5 — /repo/src/message/from_prior/pack.rs L316-378
example : testError charlieEnv ((fromPriorOf aliceDid aliceDid).pack crypto none) (.kind .malformed) = true := by decide +kernel

-- `pack_signed_works_signer_did_not_found`, case 1 — /repo/src/message/pack_signed.rs L289-301
example : testError (envOf [aliceDidDoc] aliceSecrets) (packSigned crypto messageSimple b!"did:example:unknown") (.kind .didNotResolved) = true := by decide +kernel

-- `pack_signed_works_signer_is_not_did_our_did_url`, case 1 — /repo/src/message/pack_signed.rs L304-321
example : testError (envOf [{ aliceDidDoc with id := b!"not-a-did" }] aliceSecrets) (packSigned crypto messageSimple b!"not-a-did") (.kind .illegalArgument) = true := by decide +kernel

-- `pack_signed_works_signer_did_url_not_found`, case 1 — /repo/src/message/pack_signed.rs L324-343
example : testError (envOf [aliceDidDoc] aliceSecrets) (packSigned crypto messageSimple b!"did:example:alice#unkown") (.kind .didUrlNotFound) = true := by decide +kernel

-- `pack_signed_works_signer_did_resolving_err`, case 1 — /repo/src/message/pack_signed.rs L346-363
example : testError { envOf [] aliceSecrets with resolve := fun _ => .error .invalidState } (packSigned crypto messageSimple aliceDid) (.kind .invalidState) = true := by decide +kernel

-- `pack_signed_works_signer_secrets_not_found`, case 1 — /repo/src/message/pack_signed.rs L366-385
example : testError (envOf [aliceDidDocWithNoSecrets] aliceSecrets) (packSigned crypto messageSimple b!"did:example:alice#key-not-in-secrets-1")
    (.kind .secretNotFound) = true := by decide +kernel

-- `pack_signed_works_unable_instantiate_sign_key`, case 1 — /repo/src/message/pack_signed.rs L388-425
example : testError (envOf [{ aliceDidDoc with authentication := aliceDidDoc.authentication ++ [b!"did:example:alice#key-d25519-1"] }] (aliceSecrets ++ [⟨b!"did:example:alice#key-d25519-1", .jsonWebKey2020, .jwk (.obj [(b!"crv", .str b!"A-256"), (b!"d", .str b!"sB0bYtpaXyp-h17dDpMx91N3Du1AdN4z1FUq02GbmLw"), (b!"kty", .str b!"EC"), (b!"x", .str b!"L0crjMN1g0Ih4sYAJ_nGoHUck2cloltUpUVQDhF2nHE"), (b!"y", .str b!"SxYgE7CmEJYi7IDhgK5jI4ZiajO8jPRZDldVhqFpYoo")])⟩])) (packSigned crypto messageSimple b!"did:example:alice#key-d25519-1") (.kind .unsupported) = true := by decide +kernel

end DIDComm.Vectors
