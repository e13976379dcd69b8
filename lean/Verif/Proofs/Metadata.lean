import Verif.Proofs.Documents

/-! # Metadata can be read back from its JSON: helper lemmas -/

set_option autoImplicit false

namespace DIDComm

variable {f64 : Str → Option Str}

theorem optField_orNull {α : Type} {m : List (Str × Value)} {name : Str} {o : Option α} {f : α → Value} {d : Tree → Option α}
    (h : named name m = [orNull f o]) (hd : ∀ a, o = some a → dOpt d (f a).tree = some (some a)) :
    optField (m.map fun p => (p.1, p.2.tree)) name d = some o := by
  rw [optField_tree_some h]
  cases o with
  | none => simp [orNull, Value.tree, dOpt]
  | some a => exact hd a rfl

/-- The names of the signature algorithms. -/
def signAlgNames : List (Str × SignAlg) := [(b!"EdDSA", .edDSA), (b!"ES256", .es256), (b!"ES256K", .es256k)]

/-- Read unpack metadata. -/
def dUnpackMetadata (n : Nat) (t : Tree) : Option UnpackMetadata := do
  let m ← asMap n t
  let encrypted ← reqField m b!"encrypted" dBool
  let authenticated ← reqField m b!"authenticated" dBool
  let nonRepudiation ← reqField m b!"non_repudiation" dBool
  let anonymousSender ← reqField m b!"anonymous_sender" dBool
  let reWrappedInForward ← reqField m b!"re_wrapped_in_forward" dBool
  let encryptedFromKid ← optField m b!"encrypted_from_kid" dStr
  let encryptedToKids ← optField m b!"encrypted_to_kids" (dVec (fun _ => dStr) (n - 1))
  let signFrom ← optField m b!"sign_from" dStr
  let fromPriorIssuerKid ← optField m b!"from_prior_issuer_kid" dStr
  let encAlgAuth ← optField m b!"enc_alg_auth" (dUnit authAlgNames 0)
  let encAlgAnon ← optField m b!"enc_alg_anon" (dUnit anonAlgNames 0)
  let signAlg ← optField m b!"sign_alg" (dUnit signAlgNames 0)
  let signedMessage ← optField m b!"signed_message" dStr
  let fromPrior ← optField m b!"from_prior" (dFromPrior (n - 1))
  some ⟨encrypted, authenticated, nonRepudiation, anonymousSender, reWrappedInForward, encryptedFromKid, encryptedToKids,
    signFrom, fromPriorIssuerKid, encAlgAuth, encAlgAnon, signAlg, signedMessage, fromPrior⟩

theorem dOpt_some {α : Type} {d : Tree → Option α} {t : Tree} {a : α} (h : d t = some a) (ht : t ≠ .null) :
    dOpt d t = some (some a) := by
  cases t <;> first | exact absurd rfl ht | simp [dOpt, h]

theorem dUnpackMetadata_tree (m : UnpackMetadata) (h : m.WF) : dUnpackMetadata depthLimit m.toJson.tree = some m := by
  unfold dUnpackMetadata UnpackMetadata.toJson
  rw [asMap_tree _ _ (by decide) (by keys_utf8)]
  simp only [Option.bind_eq_bind, Option.bind_some]
  rw [reqField_tree (v := .bool m.encrypted) (by simp), dBool_tree,
    reqField_tree (v := .bool m.authenticated) (by simp), dBool_tree,
    reqField_tree (v := .bool m.nonRepudiation) (by simp), dBool_tree,
    reqField_tree (v := .bool m.anonymousSender) (by simp), dBool_tree,
    reqField_tree (v := .bool m.reWrappedInForward) (by simp), dBool_tree,
    optField_orNull (o := m.encryptedFromKid) (f := .str) (by simp) (fun a ha => dOpt_dStr_tree (h.encryptedFromKid a ha)),
    optField_orNull (o := m.encryptedToKids) (f := fun l => .arr (l.map .str)) (by simp)
      (fun l hl => dOpt_dVec_tree (fun _ => dStr) .str _ l (by decide) (fun a ha => dStr_tree (h.encryptedToKids l hl a ha))),
    optField_orNull (o := m.signFrom) (f := .str) (by simp) (fun a ha => dOpt_dStr_tree (h.signFrom a ha)),
    optField_orNull (o := m.fromPriorIssuerKid) (f := .str) (by simp) (fun a ha => dOpt_dStr_tree (h.fromPriorIssuerKid a ha)),
    optField_orNull (o := m.encAlgAuth) (f := fun a => .str (AuthCryptAlg.name a)) (by simp)
      (fun a _ => by cases a; rfl),
    optField_orNull (o := m.encAlgAnon) (f := fun a => .str (AnonCryptAlg.name a)) (by simp)
      (fun a _ => by cases a <;> rfl),
    optField_orNull (o := m.signAlg) (f := fun a => .str (SignAlg.name a)) (by simp)
      (fun a _ => by cases a <;> rfl),
    optField_orNull (o := m.signedMessage) (f := .str) (by simp) (fun a ha => dOpt_dStr_tree (h.signedMessage a ha)),
    optField_orNull (o := m.fromPrior) (f := FromPrior.toJson) (by simp)
      (fun f hf => dOpt_some (dFromPrior_tree f (h.fromPrior f hf) _ (by decide))
        (by unfold FromPrior.toJson; simp [Value.tree]))]
  rfl

theorem numsOk_orNull {α : Type} {f : α → Value} {o : Option α} (h : ∀ a, (f a).NumsOk) : (orNull f o).NumsOk := by
  cases o with
  | none => simp [orNull, Value.NumsOk]
  | some a => exact h a

theorem UnpackMetadata.numsOk (m : UnpackMetadata) : m.toJson.NumsOk := by
  simp only [UnpackMetadata.toJson, Value.NumsOk, Value.NumsOkM]
  refine ⟨trivial, trivial, trivial, trivial, trivial, ?_, ?_, ?_, ?_, ?_, ?_, ?_, ?_, ?_, trivial⟩
  case refine_2 => exact numsOk_orNull fun l => by simp [Value.NumsOk, numsOkL_map_str]
  case refine_9 => exact numsOk_orNull FromPrior.numsOk
  all_goals exact numsOk_orNull fun l => by simp [Value.NumsOk]

/-- Read the metadata of a service. -/
def dServiceMetadata (n : Nat) (t : Tree) : Option MessagingServiceMetadata := do
  let m ← asMap n t
  let id ← reqField m b!"id" dStr
  let e ← reqField m b!"service_endpoint" dStr
  some ⟨id, e⟩

/-- Read pack metadata. -/
def dPackMetadata (n : Nat) (t : Tree) : Option PackEncryptedMetadata := do
  let m ← asMap n t
  let s ← optField m b!"messaging_service" (dServiceMetadata (n - 1))
  let f ← optField m b!"from_kid" dStr
  let g ← optField m b!"sign_by_kid" dStr
  let k ← reqField m b!"to_kids" (dVec (fun _ => dStr) (n - 1))
  some ⟨s, f, g, k⟩

theorem dPackMetadata_tree (m : PackEncryptedMetadata) (h : m.WF) : dPackMetadata depthLimit m.toJson.tree = some m := by
  unfold dPackMetadata PackEncryptedMetadata.toJson
  rw [asMap_tree _ _ (by decide) (by keys_utf8)]
  simp only [Option.bind_eq_bind, Option.bind_some]
  rw [optField_orNull (o := m.messagingService) (f := MessagingServiceMetadata.toJson) (by simp)
      (fun s hs => dOpt_some (a := s) (by
        unfold dServiceMetadata MessagingServiceMetadata.toJson
        rw [asMap_tree _ _ (by decide) (by keys_utf8)]
        simp only [Option.bind_eq_bind, Option.bind_some]
        rw [reqField_tree (v := .str s.id) (by simp), dStr_tree (h.service s hs).1,
          reqField_tree (v := .str s.serviceEndpoint) (by simp), dStr_tree (h.service s hs).2]
        rfl) (by unfold MessagingServiceMetadata.toJson; simp [Value.tree])),
    optField_orNull (o := m.fromKid) (f := .str) (by simp) (fun a ha => dOpt_dStr_tree (h.fromKid a ha)),
    optField_orNull (o := m.signByKid) (f := .str) (by simp) (fun a ha => dOpt_dStr_tree (h.signByKid a ha)),
    reqField_tree (v := .arr (m.toKids.map .str)) (by simp),
    dVec_tree (fun _ => dStr) .str _ m.toKids (by decide) (fun a ha => dStr_tree (h.toKids a ha))]
  rfl

theorem PackEncryptedMetadata.numsOk (m : PackEncryptedMetadata) : m.toJson.NumsOk := by
  simp only [PackEncryptedMetadata.toJson, Value.NumsOk, Value.NumsOkM, numsOkL_map_str]
  refine ⟨numsOk_orNull fun s => ?_, ?_, ?_, trivial, trivial⟩
  · simp [MessagingServiceMetadata.toJson, Value.NumsOk, Value.NumsOkM]
  all_goals exact numsOk_orNull fun l => by simp [Value.NumsOk]

theorem ofPrint {α : Type} {d : Nat → Tree → Option α} {v w : Value} (hv : v.NumsOk) (hw : w.NumsOk) {a b : α}
    (h1 : d depthLimit v.tree = some a) (h2 : d depthLimit w.tree = some b) (h : v.print = w.print) : a = b := by
  let _ : Early d := ⟨fun _ _ => false⟩
  have e1 : fromJson d _ = _ := fromJson_print hv h1
  have e2 : fromJson d _ = _ := fromJson_print hw h2
  rw [h, e2] at e1
  exact (Except.ok.inj e1).symm

end DIDComm
