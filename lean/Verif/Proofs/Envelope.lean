import Verif.Proofs.Typed
import Verif.Proofs.Utf8
import Verif.Proofs.Base64
import Verif.Model.Jws
import Verif.Model.Jwe

/-! # Envelopes survive serialisation -/

set_option autoImplicit false

namespace DIDComm

variable {f64 : Str → Option Str}

theorem Plain.needsEsc {s : Str} (h : Plain s) : needsEsc s = false := by
  unfold DIDComm.needsEsc
  rw [List.any_eq_false]
  intro b hb
  obtain ⟨h1, h2, h3⟩ := h.2 b hb
  simp [escaped, h1, h2, UInt8.not_lt.2 h3]

theorem plain_of_ascii {s : Str} (h : ∀ b ∈ s, b < 0x80 ∧ b ≠ 0x22 ∧ b ≠ 0x5C ∧ 0x20 ≤ b) : Plain s :=
  ⟨Ascii.valid (fun b hb => (h b hb).1), fun b hb => (h b hb).2⟩

theorem isSym_plain : ∀ b : UInt8, B64.isSym b = true → b < 0x80 ∧ b ≠ 0x22 ∧ b ≠ 0x5C ∧ 0x20 ≤ b := by
  apply UInt8.forall_of_fin
  decide +kernel

theorem B64.plain_encode (b : Bytes) : Plain (B64.encode b) :=
  plain_of_ascii fun c hc => isSym_plain c (B64.encode_sym b c hc)

theorem isSym_ne_dot : ∀ b : UInt8, B64.isSym b = true → b ≠ 0x2E := by
  apply UInt8.forall_of_fin
  decide +kernel

theorem dBorrow_plain {s : Str} (h : Plain s) : dBorrow (Value.str s).tree = some s := dBorrow_tree h.1 h.needsEsc

/-! ## JWS -/

theorem dKidHeader_tree {kid : Str} (h : Plain kid) (n : Nat) (hn : 1 < n) :
    dKidHeader n (Value.obj [(b!"kid", .str kid)]).tree = some kid := by
  unfold dKidHeader
  rw [asStruct_tree _ _ _ hn (by keys_utf8)]
  simp only [Option.bind_eq_bind, Option.bind_some]
  rw [reqField_tree (v := .str kid) (by simp), dBorrow_plain h]

theorem dJwsSig_tree (s : JwsSig) (h1 : Plain s.kid) (h2 : Plain s.protected_) (h3 : Plain s.signature)
    (n : Nat) (hn : 2 < n) : dJwsSig n s.toJson.tree = some s := by
  unfold dJwsSig JwsSig.toJson
  rw [asStruct_tree _ _ _ (by omega) (by keys_utf8)]
  simp only [Option.bind_eq_bind, Option.bind_some]
  rw [reqField_tree (v := .obj [(b!"kid", .str s.kid)]) (by simp), dKidHeader_tree h1 _ (by omega),
    reqField_tree (v := .str s.protected_) (by simp), dBorrow_plain h2,
    reqField_tree (v := .str s.signature) (by simp), dBorrow_plain h3]
  rfl

theorem jws_print (j : JWS) (hp : Plain j.payload)
    (hs : ∀ s ∈ j.signatures, Plain s.kid ∧ Plain s.protected_ ∧ Plain s.signature) :
    jwsFromStr j.toJson.print = .ok j := by
  apply fromJson_print
  · simp only [JWS.toJson, Value.NumsOk, Value.NumsOkM, and_true]
    exact numsOkL_map _ _ (fun s _ => by simp [JwsSig.toJson, Value.NumsOk, Value.NumsOkM])
  · unfold dJws JWS.toJson
    rw [asStruct_tree _ _ _ (by decide) (by keys_utf8)]
    simp only [Option.bind_eq_bind, Option.bind_some]
    rw [reqField_tree (v := .arr (j.signatures.map JwsSig.toJson)) (by simp),
      dVec_tree dJwsSig JwsSig.toJson _ _ (by decide)
        (fun s hs' => dJwsSig_tree s (hs s hs').1 (hs s hs').2.1 (hs s hs').2.2 _ (by decide)),
      reqField_tree (v := .str j.payload) (by simp), dBorrow_plain hp]
    rfl

theorem jwsHeader_print (typ : Str) (alg : JwsAlg) (ht : validUtf8 typ = true)
    (ha : validUtf8 alg.asStr = true) (hr : JwsAlg.ofStr alg.asStr = alg) :
    fromJson dJwsHeader (JwsHeader.toJson ⟨typ, alg⟩).print = .ok ⟨typ, alg⟩ := by
  apply fromJson_print
  · simp [JwsHeader.toJson, Value.NumsOk, Value.NumsOkM]
  · unfold dJwsHeader JwsHeader.toJson
    rw [asStruct_tree _ _ _ (by decide) (by keys_utf8)]
    simp only [Option.bind_eq_bind, Option.bind_some]
    rw [reqField_tree (v := .str typ) (by simp), dStr_tree ht,
      reqField_tree (v := .str alg.asStr) (by simp), dStr_tree ha]
    simp [hr]

theorem compactHeader_print (typ : Str) (alg : JwsAlg) (kid : Str) (ht : Plain typ)
    (ha : validUtf8 alg.asStr = true) (hr : JwsAlg.ofStr alg.asStr = alg) (hk : Plain kid) :
    fromJson dCompactHeader (CompactHeader.toJson ⟨typ, alg, kid⟩).print = .ok ⟨typ, alg, kid⟩ := by
  apply fromJson_print
  · simp [CompactHeader.toJson, Value.NumsOk, Value.NumsOkM]
  · unfold dCompactHeader CompactHeader.toJson
    rw [asStruct_tree _ _ _ (by decide) (by keys_utf8)]
    simp only [Option.bind_eq_bind, Option.bind_some]
    rw [reqField_tree (v := .str typ) (by simp), dBorrow_plain ht,
      reqField_tree (v := .str alg.asStr) (by simp), dStr_tree ha,
      reqField_tree (v := .str kid) (by simp), dBorrow_plain hk]
    simp [hr]

/-! ## JWE -/

theorem dJweRecipient_tree (r : JweRecipient) (h1 : Plain r.kid) (h2 : Plain r.encryptedKey)
    (n : Nat) (hn : 2 < n) : dJweRecipient n r.toJson.tree = some r := by
  unfold dJweRecipient JweRecipient.toJson
  rw [asStruct_tree _ _ _ (by omega) (by keys_utf8)]
  simp only [Option.bind_eq_bind, Option.bind_some]
  rw [reqField_tree (v := .obj [(b!"kid", .str r.kid)]) (by simp), dKidHeader_tree h1 _ (by omega),
    reqField_tree (v := .str r.encryptedKey) (by simp), dBorrow_plain h2]
  rfl

theorem JWE.numsOk (j : JWE) : j.toJson.NumsOk := by
  simp only [JWE.toJson, Value.NumsOk, Value.NumsOkM, and_true, true_and]
  exact numsOkL_map _ _ (fun s _ => by simp [JweRecipient.toJson, Value.NumsOk, Value.NumsOkM])

theorem jwe_print (j : JWE) (hp : Plain j.protected_) (hiv : Plain j.iv) (hc : Plain j.ciphertext)
    (ht : Plain j.tag) (hs : ∀ r ∈ j.recipients, Plain r.kid ∧ Plain r.encryptedKey) :
    jweFromStr j.toJson.print = .ok j := by
  apply fromJson_print j.numsOk
  unfold dJwe JWE.toJson
  rw [asStruct_tree _ _ _ (by decide) (by keys_utf8)]
  simp only [Option.bind_eq_bind, Option.bind_some]
  rw [reqField_tree (v := .str j.protected_) (by simp), dBorrow_plain hp,
    reqField_tree (v := .arr (j.recipients.map JweRecipient.toJson)) (by simp),
    dVec_tree dJweRecipient JweRecipient.toJson _ _ (by decide)
      (fun s hs' => dJweRecipient_tree s (hs s hs').1 (hs s hs').2 _ (by decide)),
    reqField_tree (v := .str j.iv) (by simp), dBorrow_plain hiv,
    reqField_tree (v := .str j.ciphertext) (by simp), dBorrow_plain hc,
    reqField_tree (v := .str j.tag) (by simp), dBorrow_plain ht]
  rfl

theorem jweHeader_print (typ : Str) (alg : JweAlg) (enc : EncAlg) (skid apu : Option Str) (apv : Str) (epk : Value)
    (ht : validUtf8 typ = true)
    (ha : validUtf8 alg.asStr = true) (hr : JweAlg.ofStr alg.asStr = alg)
    (he : validUtf8 enc.asStr = true) (her : EncAlg.ofStr enc.asStr = enc)
    (hsk : ∀ s, skid = some s → Plain s) (hapu : ∀ s, apu = some s → Plain s) (hapv : Plain apv)
    (hepk : epk.WF f64) (hd : epk.depth < 127) :
    fromJson (dJweHeader f64) (JweHeader.toJson ⟨some typ, alg, enc, skid, apu, apv, epk⟩).print
      = .ok ⟨some typ, alg, enc, skid, apu, apv, epk⟩ := by
  apply fromJson_print
  · simp only [JweHeader.toJson, Value.NumsOk, numsOkM_append]
    simp [Value.NumsOk, Value.NumsOkM, numsOk_optStr, hepk.numsOk]
  · unfold dJweHeader JweHeader.toJson
    rw [asStruct_tree _ _ _ (by decide) (by keys_utf8)]
    simp only [Option.bind_eq_bind, Option.bind_some]
    rw [optField_tree_some (v := .str typ) (by simp), dOpt_dStr_tree ht,
      reqField_tree (v := .str alg.asStr) (by simp), dStr_tree ha,
      reqField_tree (v := .str enc.asStr) (by simp), dStr_tree he,
      optField_borrow (o := skid) (fun s h => (hsk s h).1) (fun s h => (hsk s h).needsEsc) (by simp),
      optField_borrow (o := apu) (fun s h => (hapu s h).1) (fun s h => (hapu s h).needsEsc) (by simp),
      reqField_tree (v := .str apv) (by simp), dBorrow_plain hapv,
      reqField_tree (v := epk) (by simp), toValue_tree epk (depthLimit - 1) hepk hd]
    simp [hr, her]

end DIDComm
