import Verif.Spec.LookUp
import Verif.Proofs.Trace
import Verif.Proofs.WorldRuns

/-! # C71: whose documents packing asks for -/

set_option autoImplicit false

namespace DIDComm

variable {C : Crypto} {S : List Event → Query → Prop} {K : Query → ErrorKind → Prop} {h : List Event}

/-! ## Helper lemmas -/

/-- Questions for documents must be allowed by `L`; the others are free. -/
def OnlyLooks (L : List Event → Str → Prop) (pre : List Event) (q : Query) : Prop := ∀ d, q = .resolve d → L pre d

variable {L : List Event → Str → Prop}

theorem onlyLooks_random {pre : List Event} : OnlyLooks L pre .random := by intro d hd; cases hd
theorem onlyLooks_find {pre : List Event} {l : List Str} : OnlyLooks L pre (.findSecrets l) := by intro d hd; cases hd
theorem onlyLooks_get {pre : List Event} {k : Str} : OnlyLooks L pre (.getSecret k) := by intro d hd; cases hd
theorem onlyLooks_resolve {pre : List Event} {d : Str} (hd : L pre d) : OnlyLooks L pre (.resolve d) := by
  intro d' h; cases h; exact hd

theorem packPlaintext_looks {m : Message}
    (hL : ∀ jwt kid, m.fromPrior = some jwt → JwtKid jwt kid → HasFragment kid → L h (didOf kid)) :
    Obeys (OnlyLooks L) K h (packPlaintext C m) := by
  refine packPlaintext_obeys ?_
  rintro q jwt hj ⟨a, rest, b, hdr, h1, h2, h3, h4, rfl⟩
  exact onlyLooks_resolve (hL jwt _ hj ⟨a, rest, b, hdr, h1, h2, h3, rfl⟩ h4)

theorem packSigned_looks {m : Message} {s : Str} (hs : L h (didOf s))
    (hL : ∀ pre jwt kid, m.fromPrior = some jwt → JwtKid jwt kid → HasFragment kid → L (h ++ pre) (didOf kid)) :
    Obeys (OnlyLooks L) K h (packSigned C m s) := by
  unfold packSigned
  exact .ite (fun _ => .fail) fun _ => .resolve_bind (onlyLooks_resolve (didOrUrl_fst s ▸ hs)) fun doc =>
    .lift_bind fun doc hd => .lift_bind fun kids hk =>
    .findSecrets_bind onlyLooks_find fun found => .lift_bind fun kid hf => .getSecret_bind onlyLooks_get fun _ => .lift_bind fun _ _ =>
    .lift_bind fun _ _ => .bind (packPlaintext_looks fun j k a b c => by simpa using hL _ j k a b c) fun _ _ _ =>
      .lift_bind fun _ _ => .lift_bind fun _ _ => .lift

theorem anoncrypt_looks {to : Str} {msg : Bytes} {alg : AnonCryptAlg} (hL : L h (didOf to)) :
    Obeys (OnlyLooks L) K h (anoncrypt C to msg alg) := by
  unfold anoncrypt
  exact .resolve_bind (onlyLooks_resolve (didOrUrl_fst to ▸ hL)) fun _ => .lift_bind fun _ _ => .lift_bind fun _ _ =>
    .lift_bind fun _ _ => .lift_bind fun _ _ =>
    .ite (fun _ => .lift_bind fun _ _ => .bind (jweEncrypt_obeys fun _ => onlyLooks_random) fun _ _ _ => .lift)
      fun _ => .fail

theorem authcrypt_looks {to f : Str} {msg : Bytes} {al : AuthCryptAlg} {an : AnonCryptAlg} {ps : Bool}
    (h1 : ∀ pre, L (h ++ pre) (didOf to)) (h2 : ∀ pre, L (h ++ pre) (didOf f)) :
    Obeys (OnlyLooks L) K h (authcrypt C to f msg al an ps) := by
  unfold authcrypt
  refine .resolve_bind (onlyLooks_resolve (didOrUrl_fst to ▸ by simpa using h1 [])) fun _ => .lift_bind fun _ _ =>
    .resolve_bind (onlyLooks_resolve (didOrUrl_fst f ▸ h2 _)) fun doc => .lift_bind fun doc hd =>
    .lift_bind fun kids hk => .findSecrets_bind onlyLooks_find fun found => .ite (fun _ => .fail) fun _ =>
    .lift_bind fun vms hv => .lift_bind fun _ _ => .lift_bind fun _ _ => .lift_bind fun vm hvm =>
    .getSecret_bind onlyLooks_get fun _ => .lift_bind fun _ _ => ?_
  split
  · exact .ite (fun _ => .lift_bind fun _ _ => .lift_bind fun _ _ => .bind (jweEncrypt_obeys fun _ => onlyLooks_random) fun _ _ _ =>
      .ite (fun _ => .bind (jweEncrypt_obeys fun _ => onlyLooks_random) fun _ _ _ => .lift) fun _ => .lift) fun _ => .fail
  · exact .fail

theorem wrapLoop_looks {hs : Option (List (Str × Value))} {a : AnonCryptAlg} :
    ∀ l m, (∀ pre, ∀ x ∈ l, L (h ++ pre) (didOf x.1)) → Obeys (OnlyLooks L) K h (wrapLoop C hs a l m) := by
  intro l
  induction l generalizing h with
  | nil => intro m _; exact .pure
  | cons p r ih =>
    intro m hL
    obtain ⟨to, next⟩ := p
    unfold wrapLoop
    exact .bind (buildForwardMessage_obeys onlyLooks_random) fun _ t _ =>
      .bind (anoncrypt_looks (hL _ (to, next) (by simp))) fun _ t' _ =>
      ih _ fun pre x hx => by simpa using hL _ x (by simp [hx])

theorem wrapInForward_looks {m : Str} {hs : Option (List (Str × Value))} {to : Str} {ks : List Str} {a : AnonCryptAlg}
    (hL : ∀ pre, ∀ k ∈ ks, L (h ++ pre) (didOf k)) : Obeys (OnlyLooks L) K h (wrapInForward C m hs to ks a) := by
  unfold wrapInForward
  split
  · exact .ret
  · refine wrapLoop_looks _ _ fun pre x hx => ?_
    exact hL pre _ (List.mem_reverse.1 (List.of_mem_zip hx).1)

theorem servicesChain_looks {t : Str} {o : Option Str} (hL : L h (didOf t))
    (hM : ∀ doc n v, Selects doc.service o (.ok (some (n, v))) → LooksLikeDid v.uri →
      L (h ++ [evResolve (didOf t) (some doc)]) v.uri) :
    Obeys (OnlyLooks L) (fun _ _ => True) h (servicesChain t o) := by
  intro tr r hr pre e post ht
  have key : Obeys (fun _ _ => True) (fun _ _ => False) h (servicesChain t o) := servicesChain_obeys (fun _ _ => trivial)
  refine ⟨?_, fun k hk => ?_⟩
  · rcases C37_chain _ _ _ _ hr with ⟨a, rfl, -⟩ | ⟨doc, ⟨n, v⟩, b, rfl, hs, hd, -⟩
    · cases pre with
      | nil => cases ht; exact onlyLooks_resolve (by simpa using hL)
      | cons x pre => cases pre <;> simp at ht
    · cases pre with
      | nil => cases ht; exact onlyLooks_resolve (by simpa using hL)
      | cons x pre =>
        cases pre with
        | nil => cases ht; exact onlyLooks_resolve (hM doc n v hs hd)
        | cons y pre => cases pre <;> simp at ht
  · obtain ⟨a, k', b, -⟩ := (key tr r hr pre e post ht).2 k hk
    exact ⟨a, k', b, .inr trivial⟩

theorem resolved_append {pre post : List Event} {d : Str} {doc : DIDDoc} (hd : Resolved pre d doc) :
    Resolved (pre ++ post) d doc := List.mem_append_left _ hd

theorem ServiceFor.append {to : Str} {sid : Option Str} {pre post : List Event} {v : DIDCommMessagingService}
    (hs : ServiceFor to sid pre v) : ServiceFor to sid (pre ++ post) v := by
  obtain ⟨doc, n, h1, h2⟩ := hs
  exact ⟨doc, n, resolved_append h1, h2⟩

theorem wrapInForwardIfNeeded_looks {msg to : Str} {opts : PackEncryptedOptions} {m : Message} {f s : Option Str} :
    Obeys (OnlyLooks (LooksUp m to f s opts)) (fun _ _ => True) h (wrapInForwardIfNeeded C msg to opts) := by
  unfold wrapInForwardIfNeeded
  refine .ite (fun _ => .pure) fun hf => ?_
  have hf : opts.forward = true := by simpa using hf
  refine .bind (servicesChain_looks .recipient fun doc n v hs hu => .mediator hf ⟨doc, n, List.mem_append_right _ (List.mem_singleton.2 rfl), hs⟩ hu)
    fun chain t hr => ?_
  split
  · refine .ite (fun _ => .pure) fun hk => .bind (wrapInForward_looks fun pre k hk => ?_) fun _ _ _ => .pure
    rcases C37_chain _ _ _ _ hr with ⟨a, rfl, ⟨k, h⟩ | ⟨_, -, -, h⟩ | ⟨doc, ⟨n, v⟩, rfl, hs, h, hd⟩⟩ |
      ⟨doc, ⟨n, v⟩, b, rfl, hs, hu, ⟨k, h⟩ | ⟨_, s', -, -, h, hd⟩⟩
    · cases h
    · cases h; cases hk
    · cases h
      exact .router hf ⟨doc, n, List.mem_append_left _ (List.mem_append_right _ (List.mem_singleton.2 rfl)), hs⟩ (by simpa [chainRoutingKeys] using hk)
    · cases h
    · cases h
      have hsf : ServiceFor to opts.messagingService (h ++ [evResolve (didOf to) (some doc), ⟨.resolve v.uri, b⟩] ++ pre) v :=
        ⟨doc, n, List.mem_append_left _ (List.mem_append_right _ (List.mem_cons_self ..)), hs⟩
      rcases (show k = v.uri ∨ k ∈ v.routingKeys by simpa [chainRoutingKeys] using hk) with rfl | hk
      · exact .mediatorKeys hf hsf hu
      · exact .router hf hsf hk
  · exact .pure

theorem packEncrypted_looks {m : Message} {to : Str} {f s : Option Str} {o : PackEncryptedOptions} :
    Obeys (OnlyLooks (LooksUp m to f s o)) (fun _ _ => True) h (packEncrypted C m to f s o) := by
  unfold packEncrypted
  refine .lift_bind fun _ _ => .bind ?_ fun _ _ _ => .bind ?_ fun _ _ _ => .bind wrapInForwardIfNeeded_looks fun w _ _ => ?_
  · unfold packInner
    split
    · exact .bind (packSigned_looks (.signer rfl) fun _ j k a b c => .prior a b c) fun _ _ _ => .pure
    · exact .bind (packPlaintext_looks fun j k a b c => .prior a b c) fun _ _ _ => .pure
  · unfold packCrypt
    split
    · exact .bind (authcrypt_looks (fun _ => .recipient) fun _ => .sender rfl) fun _ _ _ => .pure
    · exact .bind (anoncrypt_looks .recipient) fun _ _ _ => .pure
  · split <;> exact .pure

/-! ## The property -/

/-- C71, `pack_encrypted`: at every point of every run, also of failing ones and whatever the resolvers answer, the
document asked for is one of those `LooksUp` allows. -/
theorem C71_encrypted (m : Message) (to : Str) (from_ signBy : Option Str) (opts : PackEncryptedOptions) (tr : List Event)
    (r : Res (Str × PackEncryptedMetadata)) (hr : Runs (packEncrypted C m to from_ signBy opts) tr r)
    (pre post : List Event) (d : Str) (a : Except ErrorKind (Option DIDDoc)) (ht : tr = pre ++ ⟨.resolve d, a⟩ :: post) :
    LooksUp m to from_ signBy opts pre d := by
  have := (packEncrypted_looks (h := []) tr r hr pre _ post ht).1
  simpa using this d rfl

/-- C71, `pack_signed`: only the signer and the issuer of the `from_prior` are looked up. -/
theorem C71_signed (m : Message) (signBy : Str) (tr : List Event) (r : Res (Str × Str))
    (hr : Runs (packSigned C m signBy) tr r) (d : Str) (a : Except ErrorKind (Option DIDDoc))
    (ht : (⟨.resolve d, a⟩ : Event) ∈ tr) :
    d = didOf signBy ∨ ∃ jwt kid, m.fromPrior = some jwt ∧ JwtKid jwt kid ∧ HasFragment kid ∧ d = didOf kid := by
  obtain ⟨pre, post, rfl⟩ := List.append_of_mem ht
  have := (packSigned_looks (h := []) (K := fun _ _ => True)
    (L := fun _ d => d = didOf signBy ∨ ∃ jwt kid, m.fromPrior = some jwt ∧ JwtKid jwt kid ∧ HasFragment kid ∧ d = didOf kid)
    (.inl rfl) (fun _ j k a b c => .inr ⟨j, k, a, b, c, rfl⟩) _ r hr pre _ post rfl).1
  exact this d rfl

/-- C71, `pack_plaintext`: only the issuer of the `from_prior` is looked up. -/
theorem C71_plaintext (m : Message) (tr : List Event) (r : Res Str) (hr : Runs (packPlaintext C m) tr r)
    (d : Str) (a : Except ErrorKind (Option DIDDoc)) (ht : (⟨.resolve d, a⟩ : Event) ∈ tr) :
    ∃ jwt kid, m.fromPrior = some jwt ∧ JwtKid jwt kid ∧ HasFragment kid ∧ d = didOf kid := by
  obtain ⟨pre, post, rfl⟩ := List.append_of_mem ht
  have := (packPlaintext_looks (h := []) (K := fun _ _ => True)
    (L := fun _ d => ∃ jwt kid, m.fromPrior = some jwt ∧ JwtKid jwt kid ∧ HasFragment kid ∧ d = didOf kid)
    (fun j k a b c => ⟨j, k, a, b, c, rfl⟩) _ r hr pre _ post rfl).1
  exact this d rfl

/-- C71, `wrap_in_forward`: only the owners of the routing keys are looked up; not the recipient. -/
theorem C71_wrap (msg : Str) (headers : Option (List (Str × Value))) (to : Str) (keys : List Str) (alg : AnonCryptAlg)
    (tr : List Event) (r : Res Str) (hr : Runs (wrapInForward C msg headers to keys alg) tr r)
    (d : Str) (a : Except ErrorKind (Option DIDDoc)) (ht : (⟨.resolve d, a⟩ : Event) ∈ tr) : ∃ k ∈ keys, d = didOf k := by
  obtain ⟨pre, post, rfl⟩ := List.append_of_mem ht
  have := (wrapInForward_looks (h := []) (K := fun _ _ => True) (L := fun _ d => ∃ k ∈ keys, d = didOf k)
    (fun _ k hk => ⟨k, hk, rfl⟩) _ r hr pre _ post rfl).1
  exact this d rfl

/-- C71, `FromPrior::pack`: only the issuer is looked up. -/
theorem C71_issue (f : FromPrior) (kid : Option Str) (tr : List Event) (r : Res (Str × Str)) (hr : Runs (f.pack C kid) tr r)
    (d : Str) (a : Except ErrorKind (Option DIDDoc)) (ht : (⟨.resolve d, a⟩ : Event) ∈ tr) : d = f.iss := by
  have key : Obeys (OnlyLooks fun _ d => d = f.iss) (fun _ _ => True) [] (f.pack C kid) := by
    unfold FromPrior.pack
    exact .lift_bind fun u hv => .resolve_bind (onlyLooks_resolve rfl) fun doc => .lift_bind fun doc hd => .lift_bind fun kids hk =>
      .findSecrets_bind onlyLooks_find fun found => .lift_bind fun kid hf => .getSecret_bind onlyLooks_get fun _ => .lift_bind fun _ _ =>
      .lift_bind fun _ _ => .lift_bind fun _ _ => .lift_bind fun _ _ => .lift
  obtain ⟨pre, post, rfl⟩ := List.append_of_mem ht
  exact (key _ r hr pre _ post rfl).1 d rfl

theorem didOf_bare (s : Str) : ¬ HasFragment (didOf s) := by
  intro h
  have := List.all_eq_true.1 (List.all_takeWhile (l := s) (p := fun b => b ≠ 0x23)) _ h
  simp at this

/-- C71: the resolver is asked about plain DIDs, never about key ids, with one exception: the endpoint of the recipient's
service, which is passed on as it is if it looks like a DID. -/
theorem C71_bare (m : Message) (to : Str) (from_ signBy : Option Str) (opts : PackEncryptedOptions) (tr : List Event)
    (r : Res (Str × PackEncryptedMetadata)) (hr : Runs (packEncrypted C m to from_ signBy opts) tr r)
    (pre post : List Event) (d : Str) (a : Except ErrorKind (Option DIDDoc)) (ht : tr = pre ++ ⟨.resolve d, a⟩ :: post)
    (hf : HasFragment d) : ∃ v, ServiceFor to opts.messagingService pre v ∧ LooksLikeDid d ∧ d = v.uri := by
  cases C71_encrypted m to from_ signBy opts tr r hr pre post d a ht with
  | mediator _ hs hu => exact ⟨_, hs, hu, rfl⟩
  | _ => exact absurd hf (didOf_bare _)

/-! ## Examples -/

/-- The documents a run asks for. -/
def lookedUp (tr : List Event) : List Str := tr.filterMap fun e => match e.query with | .resolve d => some d | _ => none

set_option maxRecDepth 100000 in
/-- Packing Alice's signed message for Bob looks up the signer, recipient and sender, then the recipient and the mediator for
the route, and the mediator twice for the keys of the two forward layers. -/
example : let x := (packEncrypted Toy.crypto World.msg World.bob (some World.alice) (some World.alice) {}).run World.env id
    lookedUp x.1 = [World.alice, World.bob, World.alice, World.bob, World.mediator, World.mediator, World.mediator] ∧
      (match x.2 with | .ok _ => true | .error _ => false) = true := by
  decide +kernel

/-- Bob's document with a key of the mediator as endpoint. -/
def World.keyEndpointDoc : DIDDoc :=
  { World.bobDoc with service := [⟨b!"did:example:bob#svc", .didCommMessaging ⟨b!"did:example:mediator#x1", none, []⟩⟩] }

set_option maxRecDepth 100000 in
/-- The exception is met: with a key id as endpoint, that key id is what the resolver is asked for. -/
theorem C71_url_looked_up : lookedUp ((packEncrypted Toy.crypto World.msg World.bob none none {}).run
    (World.envOf [World.aliceDoc, World.keyEndpointDoc, World.mediatorDoc] World.secrets) id).1
      = [World.bob, World.bob, b!"did:example:mediator#x1"] := by
  decide +kernel

end DIDComm
