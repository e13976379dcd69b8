import Verif.Spec.Toy
import Verif.Proofs.Envelope

/-! # The toy primitives satisfy the laws -/

set_option autoImplicit false

namespace DIDComm.Toy

theorem curveByte_plain (c : Curve) : validUtf8 [64 + curveByte c] = true := by
  cases c <;> decide

theorem lawful : crypto.Lawful pairs where
  verify_sign := by
    intro c s p m t sig h1 h2
    cases h1
    simp only [crypto, Option.some.injEq] at h2 ⊢
    simp [h2]
  ecdhEs_agree := by
    intro c r e j s p alg apu apv kw h1 h2 h3 h4
    cases h3
    simp only [crypto, Option.some.injEq] at h2 h4 ⊢
    subst h2
    exact ⟨e, by simp [Value.getStr]; exact B64.decode_encode e, h4⟩
  ecdh1pu_agree := by
    intro c r e j ss sp s p alg apu apv tag kw h1 h2 h3 h3' h4
    cases h3; cases h3'
    simp only [crypto, Option.some.injEq] at h2 h4 ⊢
    subst h2
    exact ⟨e, by simp [Value.getStr]; exact B64.decode_encode e, h4⟩
  unwrap_wrap := by
    intro ce r cek kw ek h1 h2
    simp only [crypto, Option.some.injEq] at h2 ⊢
    subst h2
    exact dropPrefix_append _ _
  dec_enc := by
    intro ce k iv aad pt ct tag h
    simp only [crypto, Option.some.injEq, Prod.mk.injEq] at h ⊢
    obtain ⟨rfl, rfl⟩ := h
    exact dropSuffix_append _ _
  jwk_ok := by
    intro c e j h
    simp only [crypto, Option.some.injEq] at h
    subst h
    constructor
    · simp only [Value.WF, Value.WFM, SortedKeys]
      refine ⟨?_, by decide, curveByte_plain c, by decide, (B64.plain_encode e).1, trivial⟩
      simp [strLt]; decide
    · simp [Value.depth, Value.depthM]

end DIDComm.Toy
