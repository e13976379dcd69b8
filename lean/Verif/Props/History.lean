import Verif.Spec.History
import Verif.Proofs.Primitives
import Verif.Props.Authentic

/-! # C112: in every history of calls, what is accepted as signed was asked to be signed before -/

set_option autoImplicit false

namespace DIDComm

variable {C : Crypto} {pairs : Curve → C.Key → C.Key → Prop} {honest : Curve → C.Key → Prop}

/-! ## Helper lemmas -/

theorem keyFrom_unique {doc : DIDDoc} {l : List Str} {k : Str} {c c' : Curve} {key key' : C.Key} (h : KeyFrom C doc l k c key)
    (h' : KeyFrom C doc l k c' key') : c' = c ∧ key' = key := by
  obtain ⟨-, vm, h1, -, h2⟩ := h
  obtain ⟨-, vm', h1', -, h2'⟩ := h'
  rw [h1] at h1'; cases h1'
  rw [h2] at h2'; cases h2'
  exact ⟨rfl, rfl⟩

theorem keyFrom_replaced {P : Primitives C.Key} {doc : DIDDoc} {l : List Str} {k : Str} {c : Curve} {key : C.Key}
    (h : KeyFrom (C.replaced P) doc l k c key) : KeyFrom C doc l k c key := by
  obtain ⟨h0, vm, h1, h2, h3⟩ := h
  rw [method_replaced] at h3
  refine ⟨h0, vm, h1, h2, ?_⟩
  cases hv : vm.asKeyPair C with
  | error e => rw [hv] at h3; cases h3
  | ok p => rw [hv] at h3; cases h3; rfl

theorem notTrusting_at {c c' : Curve} {key key' : C.Key} {text sig : Bytes} {st : SigType} (h : c' = c ∧ key' = key) :
    (C.notTrusting c key text).verify c' key' text sig st = some false := by
  obtain ⟨rfl, rfl⟩ := h
  simp [Crypto.notTrusting]

theorem notSigning_other {c c' : Curve} {key key' : C.Key} {text text' : Bytes} {st : SigType} (h : ¬ (c' = c ∧ key' = key ∧ text' = text)) :
    (C.notSigning c key text).sign c' key' text' st = C.sign c' key' text' st := by
  simp [Crypto.notSigning, h]

theorem notSigning_at {c : Curve} {key : C.Key} {text : Bytes} {st : SigType} : (C.notSigning c key text).sign c key text st = none := by
  simp [Crypto.notSigning]

theorem happens_replaced {P : Primitives C.Key} (hm : SameMaking C P) (ho : SameOpening C P) (hs : SameSending C P) (hu : P.uuid = C.uuid)
    (hv : P.verify = C.verify) {tr : List Event} (call : LibCall)
    (h1 : ∀ m, call.AsksToSign m → ∀ c k text st, SignsMessage m text → P.sign c k text st = C.sign c k text st)
    (h2 : ∀ f, call.AsksToSignPrior f → ∀ c k text st, SignsPrior f text → P.sign c k text st = C.sign c k text st) :
    call.Happens (C.replaced P) tr ↔ call.Happens C tr := by
  cases call with
  | packPlaintext m out =>
    show Runs (packPlaintext (C.replaced P) m) _ _ ↔ _
    rw [plaintext_replaced fun _ => hv]; rfl
  | packSigned m signBy out kid =>
    show Runs (packSigned (C.replaced P) m signBy) _ _ ↔ _
    rw [signed_replaced (fun _ => hv) (h1 m rfl)]; rfl
  | packEncrypted m to from_ signBy opts out md =>
    show Runs (packEncrypted (C.replaced P) m to from_ signBy opts) _ _ ↔ _
    rw [encrypted_replaced hm (fun _ => hv) (fun _ => hs) (fun h => h1 m ⟨rfl, h⟩) (fun _ => hu)]; rfl
  | packPrior f issuerKid jwt kid =>
    show Runs (f.pack (C.replaced P) issuerKid) _ _ ↔ _
    rw [priorPack_replaced (h2 f rfl)]; rfl
  | unpackPrior jwt f kid =>
    show Runs (FromPrior.unpack (C.replaced P) jwt) _ _ ↔ _
    rw [priorUnpack_replaced hv]; rfl
  | wrapInForward msg headers to keys alg out =>
    show Runs (wrapInForward (C.replaced P) msg headers to keys alg) _ _ ↔ _
    rw [wrap_replaced hm hu]; rfl
  | unpack t opts m md =>
    show Runs (unpack (C.replaced P) t opts) _ _ ↔ _
    rw [unpack_replaced ho hv]; rfl

/-- A call that signs a text is a request to sign a message or claims, and the text is what is signed for them. -/
theorem signed_texts {s : LibStep} {c : Curve} {key : C.Key} {text : Bytes} (h : s.Signed C c key text) :
    (∃ m, s.call.AsksToSign m ∧ SignsMessage m text) ∨ (∃ f, s.call.AsksToSignPrior f ∧ SignsPrior f text) := by
  obtain ⟨h, hn⟩ := h
  have other : ∀ (Q : Bytes → Prop), ¬ Q text → ∀ (c' : Curve) (key' : C.Key) (text' : Bytes) (st : SigType), Q text' →
      (C.notSigning c key text).sign c' key' text' st = C.sign c' key' text' st := by
    intro Q hQ c' key' text' st hq
    refine notSigning_other ?_
    rintro ⟨-, -, rfl⟩
    exact hQ hq
  refine Classical.byContradiction fun hno => hn ((happens_replaced (P := C.notSigning c key text)
    ⟨rfl, rfl, rfl, rfl, fun _ _ _ _ _ _ => rfl, rfl, rfl⟩ ⟨fun _ _ _ _ _ _ => rfl, fun _ _ _ _ _ _ _ _ => rfl, rfl, rfl⟩
    (fun _ _ _ _ _ _ _ _ => rfl) rfl rfl s.call ?_ ?_).2 h)
  · exact fun m hm => other _ fun ht => hno (.inl ⟨m, hm, ht⟩)
  · exact fun f hf => other _ fun ht => hno (.inr ⟨f, hf, ht⟩)

/-- A call of `unpack` that reports a signer relies on a signature by the key that the signer's document has for it. -/
theorem relied_signed {E : Env} {tr : List Event} {t : Str} {opts : UnpackOptions} {m : Message} {md : UnpackMetadata} {k : Str}
    (h : Runs (unpack C t opts) tr (.ok (m, md))) (hE : Answers E tr) (hk : md.signFrom = some k) :
    ∃ doc c pub prot pl payload, E.resolve (didOf k) = .ok (some doc) ∧ KeyFrom C doc doc.authentication k c pub ∧
      LibStep.Relied C ⟨E, tr, .unpack t opts m md⟩ c pub (prot ++ b!"." ++ pl) ∧ (∀ x ∈ prot, x ≠ 0x2E) ∧
      B64.decode pl = some payload ∧ fromJson (dMessage C.f64) payload = .ok m := by
  obtain ⟨k1, t1, alg, doc, c, key, payload, e1, e2, -, -, e3, e4, -, e5, e6⟩ :=
    C11_signer t opts tr m md h (C11_reported t opts tr m md h (.inl (by simp [hk])))
  rw [hk] at e1; cases e1
  obtain ⟨prot, sig, pl, b, hdr, st, raw, d0, d1, -, -, -, d2, d3, -⟩ := e5
  have hdoc : E.resolve (didOf k) = .ok (some doc) := (hE _ e3).symm
  refine ⟨doc, c, key, prot, pl, payload, hdoc, e4, ⟨h, fun h' => ?_⟩, no_dot d1, d3, e6⟩
  have h' : Runs (unpack (C.replaced (C.notTrusting c key (prot ++ b!"." ++ pl))) t opts) tr (.ok (m, md)) := h'
  obtain ⟨k1, t1', alg', doc', c', key', payload', f1, f2, -, -, f3, f4, -, f5, -⟩ :=
    C11_signer t opts tr m md h' (C11_reported t opts tr m md h' (.inl (by simp [hk])))
  rw [hk] at f1; cases f1
  rw [e2] at f2; cases f2
  have hdoc' : E.resolve (didOf k) = .ok (some doc') := (hE _ f3).symm
  rw [hdoc] at hdoc'; cases hdoc'
  have hc := keyFrom_unique e4 (keyFrom_replaced f4)
  obtain ⟨prot', sig', pl', b', hdr', st', raw', g0, -, -, -, -, g2, -⟩ := f5
  rw [d0] at g0; cases g0
  cases (notTrusting_at (C := C) hc).symm.trans g2

/-! ## The property -/

/-- C112: in every history in which nobody forges signatures for the keys of a signer, a message that a call of `unpack` returns with
this signer was handed for signing, with the secret half of the signer's key, to an earlier call of the library. -/
theorem C112_signed (H : List LibStep) (hH : History C H) (hu : Unforged C pairs honest H) (i : Nat) (E : Env) (tr : List Event)
    (t : Str) (opts : UnpackOptions) (m : Message) (md : UnpackMetadata) (k : Str) (hi : H[i]? = some ⟨E, tr, .unpack t opts m md⟩)
    (hk : md.signFrom = some k)
    (hh : ∀ doc c pub, E.resolve (didOf k) = .ok (some doc) → KeyFrom C doc doc.authentication k c pub → honest c pub) :
    ∃ j s m' doc c pub priv text, j < i ∧ H[j]? = some s ∧ s.call.AsksToSign m' ∧
      fromJson (dMessage C.f64) m'.toJson.print = .ok m ∧ E.resolve (didOf k) = .ok (some doc) ∧
      KeyFrom C doc doc.authentication k c pub ∧ pairs c priv pub ∧ s.Signed C c priv text := by
  obtain ⟨h, hE⟩ := hH _ (List.mem_of_getElem? hi)
  obtain ⟨doc, c, pub, prot, pl, payload, h1, h2, h3, h4, h5, h6⟩ := relied_signed h hE hk
  obtain ⟨j, s, priv, hj, hs, hp, hsig⟩ := hu i _ c pub _ hi (hh doc c pub h1 h2) h3
  rcases signed_texts hsig with ⟨m', ha, a, ht⟩ | ⟨f, ha, a, kid, ht⟩
  · refine ⟨j, s, m', doc, c, pub, priv, _, hj, hs, ha, ?_, h1, h2, hp, hsig⟩
    obtain ⟨-, rfl⟩ := dot_unique ht h4 (encode_no_dot _)
    rw [B64.decode_encode] at h5; cases h5
    exact h6
  · obtain ⟨-, rfl⟩ := dot_unique ht h4 (encode_no_dot _)
    rw [B64.decode_encode] at h5; cases h5
    exact absurd h6 (fromPrior_not_message f m)

/-- C112: if what is handed for signing is well formed, it is this very message. -/
theorem C112_same_message (H : List LibStep) (hH : History C H) (hu : Unforged C pairs honest H) (i : Nat) (E : Env) (tr : List Event)
    (t : Str) (opts : UnpackOptions) (m : Message) (md : UnpackMetadata) (k : Str) (hi : H[i]? = some ⟨E, tr, .unpack t opts m md⟩)
    (hk : md.signFrom = some k)
    (hh : ∀ doc c pub, E.resolve (didOf k) = .ok (some doc) → KeyFrom C doc doc.authentication k c pub → honest c pub)
    (hwf : ∀ s ∈ H, ∀ m', s.call.AsksToSign m' → m'.WF C.f64) :
    ∃ j s, j < i ∧ H[j]? = some s ∧ s.call.AsksToSign m := by
  obtain ⟨j, s, m', _, _, _, _, _, h1, h2, h3, h4, -⟩ := C112_signed H hH hu i E tr t opts m md k hi hk hh
  rw [message_print m' (hwf s (List.mem_of_getElem? h2) m' h3)] at h4
  cases h4
  exact ⟨j, s, h1, h2, h3⟩

/-- C112: the same for claims of a prior DID that `unpack` reports. -/
theorem C112_prior (H : List LibStep) (hH : History C H) (hu : Unforged C pairs honest H) (i : Nat) (E : Env) (tr : List Event)
    (t : Str) (opts : UnpackOptions) (m : Message) (md : UnpackMetadata) (k jwt : Str)
    (hi : H[i]? = some ⟨E, tr, .unpack t opts m md⟩) (hj : m.fromPrior = some jwt) (hk : md.fromPriorIssuerKid = some k)
    (hh : ∀ doc c pub, E.resolve (didOf k) = .ok (some doc) → KeyFrom C doc doc.authentication k c pub → honest c pub)
    (hwf : ∀ s ∈ H, ∀ f, s.call.AsksToSignPrior f → f.WF) :
    ∃ fp j s, md.fromPrior = some fp ∧ j < i ∧ H[j]? = some s ∧ s.call.AsksToSignPrior fp := by
  obtain ⟨h, hE⟩ := hH _ (List.mem_of_getElem? hi)
  obtain ⟨k', fp, doc, c, key, e1, e2, -, e3, e4, e5⟩ := C13_from_prior t opts tr m md jwt h hj
  rw [hk] at e1; cases e1
  have hdoc : E.resolve (didOf k) = .ok (some doc) := (hE _ e3).symm
  obtain ⟨hd, pl, sig, b, hdr, st, sa, raw, payload, hx, d1, d2, -, -, -, -, d3, d4, -, d5⟩ := e5
  have hrel : LibStep.Relied C ⟨E, tr, .unpack t opts m md⟩ c key (hd ++ b!"." ++ pl) := by
    refine ⟨h, fun h' => ?_⟩
    have h' : Runs (unpack (C.replaced (C.notTrusting c key (hd ++ b!"." ++ pl))) t opts) tr (.ok (m, md)) := h'
    obtain ⟨k', fp', doc', c', key', f1, -, -, f3, f4, f5⟩ := C13_from_prior t opts tr m md jwt h' hj
    rw [hk] at f1; cases f1
    have hdoc' : E.resolve (didOf k) = .ok (some doc') := (hE _ f3).symm
    rw [hdoc] at hdoc'; cases hdoc'
    have hc := keyFrom_unique e4 (keyFrom_replaced f4)
    obtain ⟨hd', pl', sig', b', hdr', st', sa', raw', payload', hx', g1, -, -, -, -, -, g3, g4, -⟩ := f5
    rw [hx] at hx'
    obtain ⟨rfl, hr⟩ := dot_unique (b := pl ++ b!"." ++ sig) (b' := pl' ++ b!"." ++ sig') (by simpa only [List.append_assoc] using hx')
      (no_dot d1) (no_dot g1)
    obtain ⟨rfl, -⟩ := dot_unique hr (no_dot d4) (no_dot g4)
    cases (notTrusting_at (C := C) hc).symm.trans g3
  obtain ⟨j, s, priv, hji, hs, hp, hsig⟩ := hu i _ c key _ hi (hh doc c key hdoc e4) hrel
  rcases signed_texts hsig with ⟨m', ha, a, ht⟩ | ⟨f, ha, a, kid, ht⟩
  · obtain ⟨rfl, -⟩ := dot_unique ht (no_dot d1) (encode_no_dot _)
    rw [B64.decode_encode] at d1; cases d1
    exact absurd d2 (jwsHeader_not_compact _ _ _)
  · obtain ⟨-, rfl⟩ := dot_unique ht (no_dot d1) (encode_no_dot _)
    rw [B64.decode_encode] at d4; cases d4
    rw [fromPrior_print f (hwf s (List.mem_of_getElem? hs) f ha)] at d5
    cases d5
    exact ⟨_, j, s, e2, hji, hs, ha⟩

/-- C112: a call signs nothing but the message, or the claims, that it was asked to sign.  In particular, unpacking, forwarding and
packing without a signer never sign. -/
theorem C112_signs_only (s : LibStep) (c : Curve) (key : C.Key) (text : Bytes) (h : s.Signed C c key text) :
    (∃ m, s.call.AsksToSign m ∧ SignsMessage m text) ∨ (∃ f, s.call.AsksToSignPrior f ∧ SignsPrior f text) := signed_texts h

/-- Packing a signed message signs, with the key of the secret it reads. -/
theorem packSigned_signs {E : Env} {tr : List Event} {m : Message} {signBy out kid : Str}
    (h : Runs (packSigned C m signBy) tr (.ok (out, kid))) :
    ∃ secret pair alg, evGet kid (some secret) ∈ tr ∧ secret.asKeyPair C = .ok pair ∧ signAlgFor pair.curve = .ok alg ∧
      LibStep.Signed C ⟨E, tr, .packSigned m signBy out kid⟩ pair.curve pair.key
        (B64.encode (JwsHeader.onWire ⟨b!"application/didcomm-signed+json", alg⟩) ++ b!"." ++ B64.encode m.toJson.print) := by
  obtain ⟨doc, kids, found, secret, pair, tr', payload, alg, -, rfl, -, -, h0, h1, ha, h2⟩ := packSigned_ok.1 h
  have ht : dotJoin (jwsProtected alg) (B64.encode m.toJson.print) =
      B64.encode (JwsHeader.onWire ⟨b!"application/didcomm-signed+json", alg⟩) ++ b!"." ++ B64.encode m.toJson.print := by
    simp [dotJoin, jwsProtected, signedTyp, JwsHeader.onWire_eq]
  refine ⟨secret, pair, alg, by simp, h0, ha, h, fun h' => ?_⟩
  rw [← ht] at h'
  generalize hP : C.notSigning pair.curve pair.key (dotJoin (jwsProtected alg) (B64.encode m.toJson.print)) = P at h'
  obtain ⟨doc', kids', found', secret', pair', tr'', payload', alg', -, he, -, -, h0', h1', ha', h2'⟩ :=
    packSigned_ok.1 (show Runs (packSigned (C.replaced P) m signBy) _ _ from h')
  simp only [List.cons.injEq] at he
  obtain ⟨-, -, he, -⟩ := he
  cases he
  rw [secret_replaced, h0] at h0'
  cases h0'
  have ha' : signAlgFor pair.curve = .ok alg' := ha'
  rw [ha] at ha'; cases ha'
  obtain ⟨-, rfl⟩ := draws_plaintext h1'
  obtain ⟨st, sig, -, hs, -⟩ := jwsSign_ok.1 h2'
  subst hP
  cases (notSigning_at (C := C) (c := pair.curve) (key := pair.key)).symm.trans hs

/-- C112: `pack_signed`, when it succeeds, does sign: with the key of the secret it read. -/
theorem C112_signs (E : Env) (tr : List Event) (m : Message) (signBy out kid : Str)
    (h : Runs (packSigned C m signBy) tr (.ok (out, kid))) :
    ∃ secret pair text, evGet kid (some secret) ∈ tr ∧ secret.asKeyPair C = .ok pair ∧ SignsMessage m text ∧
      LibStep.Signed C ⟨E, tr, .packSigned m signBy out kid⟩ pair.curve pair.key text := by
  obtain ⟨secret, pair, alg, h1, h2, -, h3⟩ := packSigned_signs (E := E) h
  exact ⟨secret, pair, _, h1, h2, ⟨alg, rfl⟩, h3⟩

/-- Packing a `from_prior` signs, with the key of the secret it reads. -/
theorem packPrior_signs {E : Env} {tr : List Event} {f : FromPrior} {issuerKid : Option Str} {jwt kid : Str}
    (h : Runs (f.pack C issuerKid) tr (.ok (jwt, kid))) :
    ∃ secret pair alg, evGet kid (some secret) ∈ tr ∧ secret.asKeyPair C = .ok pair ∧ signAlgFor pair.curve = .ok alg ∧
      LibStep.Signed C ⟨E, tr, .packPrior f issuerKid jwt kid⟩ pair.curve pair.key
        (B64.encode (CompactHeader.onWire ⟨b!"JWT", alg, kid⟩) ++ b!"." ++ B64.encode f.toJson.print) := by
  obtain ⟨doc, kids, found, secret, pair, alg, -, rfl, -, -, h0, ha, h2⟩ := FromPrior.pack_ok.1 h
  have ht : dotJoin (B64.encode (CompactHeader.toJson ⟨jwtTyp, alg, kid⟩).print) (B64.encode f.toJson.print) =
      B64.encode (CompactHeader.onWire ⟨b!"JWT", alg, kid⟩) ++ b!"." ++ B64.encode f.toJson.print := by
    simp [dotJoin, jwtTyp, CompactHeader.onWire_eq]
  refine ⟨secret, pair, alg, by simp, h0, ha, h, fun h' => ?_⟩
  rw [← ht] at h'
  generalize hP : C.notSigning pair.curve pair.key
    (dotJoin (B64.encode (CompactHeader.toJson ⟨jwtTyp, alg, kid⟩).print) (B64.encode f.toJson.print)) = P at h'
  obtain ⟨doc', kids', found', secret', pair', alg', -, he, -, -, h0', ha', h2'⟩ :=
    FromPrior.pack_ok.1 (show Runs (f.pack (C.replaced P) issuerKid) _ _ from h')
  simp only [List.cons.injEq] at he
  obtain ⟨-, -, he, -⟩ := he
  cases he
  rw [secret_replaced, h0] at h0'
  cases h0'
  have ha' : signAlgFor pair.curve = .ok alg' := ha'
  rw [ha] at ha'; cases ha'
  obtain ⟨st, sig, -, hs, -⟩ := jwsSignCompact_ok.1 h2'
  subst hP
  cases (notSigning_at (C := C) (c := pair.curve) (key := pair.key)).symm.trans hs

/-- C112: `FromPrior::pack`, when it succeeds, does sign: with the key of the secret it read. -/
theorem C112_signs_prior (E : Env) (tr : List Event) (f : FromPrior) (issuerKid : Option Str) (jwt kid : Str)
    (h : Runs (f.pack C issuerKid) tr (.ok (jwt, kid))) :
    ∃ secret pair text, evGet kid (some secret) ∈ tr ∧ secret.asKeyPair C = .ok pair ∧ SignsPrior f text ∧
      LibStep.Signed C ⟨E, tr, .packPrior f issuerKid jwt kid⟩ pair.curve pair.key text := by
  obtain ⟨secret, pair, alg, h1, h2, -, h3⟩ := packPrior_signs (E := E) h
  exact ⟨secret, pair, _, h1, h2, ⟨alg, kid, rfl⟩, h3⟩

/-- C112: nothing protects against replays: whatever was accepted once can be accepted any number of times, by the same receiver. -/
theorem C112_replay (H : List LibStep) (hH : History C H) (hu : Unforged C pairs honest H) (s : LibStep) (hs : s ∈ H) (n : Nat) :
    History C (H ++ List.replicate n s) ∧ Unforged C pairs honest (H ++ List.replicate n s) := by
  constructor
  · intro x hx
    rcases List.mem_append.1 hx with hx | hx
    · exact hH x hx
    · rw [List.eq_of_mem_replicate hx]
      exact hH s hs
  · intro i x c pub text hi hh hr
    have key : ∀ i', i' ≤ i → H[i']? = some x → ∃ (j : Nat) (s' : LibStep) (priv : C.Key), j < i ∧
        (H ++ List.replicate n s)[j]? = some s' ∧ pairs c priv pub ∧ s'.Signed C c priv text := by
      intro i' hle hi'
      obtain ⟨j, s', priv, hj, hs', hp, hsig⟩ := hu i' x c pub text hi' hh hr
      refine ⟨j, s', priv, by omega, ?_, hp, hsig⟩
      rw [List.getElem?_append_left (by have := (List.getElem?_eq_some_iff.1 hi').1; omega)]
      exact hs'
    by_cases hlt : i < H.length
    · rw [List.getElem?_append_left hlt] at hi
      exact key i (Nat.le_refl i) hi
    · rw [List.getElem?_append_right (by omega)] at hi
      have e := List.eq_of_mem_replicate (List.mem_of_getElem? hi)
      subst e
      obtain ⟨i', hi'⟩ := List.getElem?_of_mem hs
      exact key i' (by have := (List.getElem?_eq_some_iff.1 hi').1; omega) hi'

/-! ## The hypotheses are met -/

/-- The toy primitives with ideal signatures: only signatures of one text verify. -/
@[reducible] def World.oneSignature (text : Bytes) : Crypto :=
  Toy.crypto.replaced { Toy.crypto.primitives with
    verify := fun c k m s t => if m = text then Toy.crypto.verify c k m s t else some false }

/-- Alice's key. -/
def World.aliceSigns (c : Curve) (pub : Bytes) : Prop := c = .ed25519 ∧ pub = [1]

theorem World.aliceKey (text : Bytes) (doc : DIDDoc) (c : Curve) (pub : Bytes)
    (hd : World.env.resolve (didOf b!"did:example:alice#ed") = .ok (some doc))
    (hf : KeyFrom (World.oneSignature text) doc doc.authentication b!"did:example:alice#ed" c pub) : World.aliceSigns c pub := by
  cases hd
  have e : (World.method b!"did:example:alice#ed" b!"OKP" b!"Ed25519" [1]).asKeyPair (World.oneSignature text) = .ok ⟨.ed25519, [1]⟩ := by rfl
  obtain ⟨-, vm, h1, -, h2⟩ := hf
  cases h1
  rw [e] at h2; cases h2
  exact ⟨rfl, rfl⟩

theorem World.aliceSecret (text : Bytes) {t : List Event} (a : Answers World.env t) {secret : Secret} {pair : KeyPair (World.oneSignature text)}
    (h : evGet b!"did:example:alice#ed" (some secret) ∈ t) (h' : secret.asKeyPair (World.oneSignature text) = .ok pair) :
    pair = ⟨.ed25519, [1]⟩ := by
  have hs : World.env.getSecret b!"did:example:alice#ed" = .ok (some secret) := (a _ h).symm
  have e1 : World.env.getSecret b!"did:example:alice#ed" =
      .ok (some (World.secret b!"did:example:alice#ed" b!"OKP" b!"Ed25519" [1])) := by rfl
  have e2 : (World.secret b!"did:example:alice#ed" b!"OKP" b!"Ed25519" [1]).asKeyPair (World.oneSignature text) = .ok ⟨.ed25519, [1]⟩ := by rfl
  rw [e1] at hs; cases hs
  rw [e2] at h'; cases h'
  rfl

/-- Two calls, of which the first relies on no signature and signs the one text, and the second unpacks. -/
theorem World.unforged {text : Bytes} {s : LibStep} {t2 : List Event} {out : Str} {m : Message} {md : UnpackMetadata}
    (h2 : Runs (unpack (World.oneSignature text) out {}) t2 (.ok (m, md)))
    (hr : ∀ c pub x, ¬ s.Relied (World.oneSignature text) c pub x) (hs : s.Signed (World.oneSignature text) .ed25519 ([1] : Bytes) text) :
    Unforged (World.oneSignature text) Toy.pairs World.aliceSigns [s, ⟨World.env, t2, .unpack out {} m md⟩] := by
  rintro i x c pub t hi ⟨rfl, rfl⟩ ⟨h, hn⟩
  match i, hi with
  | 0, hi =>
    cases hi
    exact absurd ⟨h, hn⟩ (hr _ _ _)
  | 1, hi =>
    cases hi
    by_cases ht : t = text
    · subst ht
      exact ⟨0, s, [1], by omega, rfl, rfl, hs⟩
    · refine absurd ?_ hn
      show Runs (unpack ((World.oneSignature text).replaced _) out {}) _ _
      rw [unpack_replaced (C := World.oneSignature text) ⟨fun _ _ _ _ _ _ => rfl, fun _ _ _ _ _ _ _ _ => rfl, rfl, rfl⟩ ?_]
      · exact h2
      · funext c' k' t' sig st
        by_cases hc : c' = .ed25519 ∧ k' = ([1] : Bytes) ∧ t' = t
        · obtain ⟨rfl, rfl, rfl⟩ := hc
          refine (notTrusting_at (C := World.oneSignature text) ⟨rfl, rfl⟩).trans ?_
          exact (if_neg ht).symm
        · simp [Crypto.notTrusting, hc]
  | n + 2, hi => cases hi

/-- Alice signs a message, Bob accepts it, twice: nothing is forged for Alice's key, and all hypotheses of `C112_signed` and
`C112_same_message` are met. -/
example : ∃ H t1 t2 out m md, H = [⟨World.env, t1, .packSigned World.msg World.alice out b!"did:example:alice#ed"⟩,
      ⟨World.env, t2, .unpack out {} m md⟩, ⟨World.env, t2, .unpack out {} m md⟩] ∧
    History (World.oneSignature World.signedText) H ∧ Unforged (World.oneSignature World.signedText) Toy.pairs World.aliceSigns H ∧
    md.signFrom = some b!"did:example:alice#ed" ∧
    (∀ doc c pub, World.env.resolve (didOf b!"did:example:alice#ed") = .ok (some doc) →
      KeyFrom (World.oneSignature World.signedText) doc doc.authentication b!"did:example:alice#ed" c pub → World.aliceSigns c pub) ∧
    ∀ s ∈ H, ∀ m', s.call.AsksToSign m' → m'.WF (World.oneSignature World.signedText).f64 := by
  have h : World.test World.env (do
      let (out, kid) ← packSigned (World.oneSignature World.signedText) World.msg World.alice
      let (m, md) ← unpack (World.oneSignature World.signedText) out {}
      pure (kid, md.signFrom)) (fun x => decide (x.1 = b!"did:example:alice#ed" ∧ x.2 = some b!"did:example:alice#ed")) = true := by
    decide +kernel
  obtain ⟨tr, x, h, ha, hk⟩ := World.of_test h
  obtain ⟨hk1, hk2⟩ := of_decide_eq_true hk
  simp only [runs_bind_ok] at h
  obtain ⟨⟨out, kid⟩, t1, t', rfl, h1, ⟨m, md⟩, t2, t3, rfl, h2, h3⟩ := h
  cases (runs_ret.1 h3).2
  obtain rfl : kid = b!"did:example:alice#ed" := hk1
  have a1 : Answers World.env t1 := fun ev he => ha ev (by simp [he])
  have a2 : Answers World.env t2 := fun ev he => ha ev (by simp [he])
  have hist : History (World.oneSignature World.signedText)
      [⟨World.env, t1, .packSigned World.msg World.alice out b!"did:example:alice#ed"⟩, ⟨World.env, t2, .unpack out {} m md⟩] := by
    intro s hs
    simp only [List.mem_cons, List.not_mem_nil, or_false] at hs
    rcases hs with rfl | rfl
    · exact ⟨h1, a1⟩
    · exact ⟨h2, a2⟩
  have unf := World.unforged (s := ⟨World.env, t1, .packSigned World.msg World.alice out b!"did:example:alice#ed"⟩) h2
    (by
      rintro c pub x ⟨-, hn⟩
      refine hn ?_
      show Runs (packSigned ((World.oneSignature World.signedText).replaced _) World.msg World.alice) _ _
      rw [signed_replaced (C := World.oneSignature World.signedText) (fun h => absurd rfl h) (fun _ _ _ _ _ => rfl)]
      exact h1)
    (by
      obtain ⟨secret, pair, alg, g1, g2, g3, g4⟩ := packSigned_signs (E := World.env) h1
      cases World.aliceSecret World.signedText a1 g1 g2
      cases g3
      exact g4)
  obtain ⟨hist', unf'⟩ := C112_replay _ hist unf ⟨World.env, t2, .unpack out {} m md⟩ (by simp) 1
  refine ⟨_, t1, t2, out, m, md, rfl, hist', unf', hk2, World.aliceKey _, fun s hs m' hm => ?_⟩
  simp only [List.mem_cons, List.not_mem_nil, or_false, or_self] at hs
  rcases hs with rfl | rfl
  · cases hm; exact World.msg_wf
  · cases hm

/-- Alice signs claims of a prior DID, Bob accepts a message that carries them: all hypotheses of `C112_prior` are met. -/
example : ∃ H t1 t2 jwt out m md, H = [⟨World.env, t1, .packPrior World.claims none jwt b!"did:example:alice#ed"⟩,
      ⟨World.env, t2, .unpack out {} m md⟩] ∧
    History (World.oneSignature World.priorText) H ∧ Unforged (World.oneSignature World.priorText) Toy.pairs World.aliceSigns H ∧
    m.fromPrior = some jwt ∧ md.fromPriorIssuerKid = some b!"did:example:alice#ed" ∧
    (∀ doc c pub, World.env.resolve (didOf b!"did:example:alice#ed") = .ok (some doc) →
      KeyFrom (World.oneSignature World.priorText) doc doc.authentication b!"did:example:alice#ed" c pub → World.aliceSigns c pub) ∧
    ∀ s ∈ H, ∀ f, s.call.AsksToSignPrior f → f.WF := by
  have h : World.test World.env (do
      let (jwt, kid) ← FromPrior.pack (World.oneSignature World.priorText) World.claims none
      let (m, md) ← unpack (World.oneSignature World.priorText)
        (Message.toJson { id := [], type_ := [], body := .null, fromPrior := some jwt }).print {}
      pure (kid, m.fromPrior, jwt, md.fromPriorIssuerKid))
      (fun x => decide (x.1 = b!"did:example:alice#ed" ∧ x.2.1 = some x.2.2.1 ∧ x.2.2.2 = some b!"did:example:alice#ed")) = true := by
    decide +kernel
  obtain ⟨tr, x, h, ha, hk⟩ := World.of_test h
  obtain ⟨hk1, hk2, hk3⟩ := of_decide_eq_true hk
  simp only [runs_bind_ok] at h
  obtain ⟨⟨jwt, kid⟩, t1, t', rfl, h1, ⟨m, md⟩, t2, t3, rfl, h2, h3⟩ := h
  cases (runs_ret.1 h3).2
  obtain rfl : kid = b!"did:example:alice#ed" := hk1
  have a1 : Answers World.env t1 := fun ev he => ha ev (by simp [he])
  have a2 : Answers World.env t2 := fun ev he => ha ev (by simp [he])
  refine ⟨_, t1, t2, jwt, _, m, md, rfl, ?_, World.unforged h2 ?_ ?_, hk2, hk3, World.aliceKey _, ?_⟩
  · intro s hs
    simp only [List.mem_cons, List.not_mem_nil, or_false] at hs
    rcases hs with rfl | rfl
    · exact ⟨h1, a1⟩
    · exact ⟨h2, a2⟩
  · rintro c pub x ⟨-, hn⟩
    refine hn ?_
    show Runs (World.claims.pack ((World.oneSignature World.priorText).replaced _) none) _ _
    rw [priorPack_replaced (C := World.oneSignature World.priorText) (fun _ _ _ _ _ => rfl)]
    exact h1
  · obtain ⟨secret, pair, alg, g1, g2, g3, g4⟩ := packPrior_signs (E := World.env) h1
    cases World.aliceSecret World.priorText a1 g1 g2
    cases g3
    exact g4
  · intro s hs f hf
    simp only [List.mem_cons, List.not_mem_nil, or_false] at hs
    rcases hs with rfl | rfl
    · cases hf
      exact ⟨by decide, by decide, fun s h => (by cases h), fun s h => (by cases h)⟩
    · cases hf

end DIDComm
