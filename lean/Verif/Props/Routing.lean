import Verif.Spec.Route
import Verif.Spec.World
import Verif.Props.Negotiation
import Verif.Props.Json

/-! # Services and forwards: C37, C38, C39, C41 -/

set_option autoImplicit false

namespace DIDComm

variable {C : Crypto}

/-! ## C38: which service is used -/

theorem acceptsV2_iff (v : DIDCommMessagingService) : acceptsV2 v = true ↔ Accepts v := by
  unfold acceptsV2 Accepts
  cases h : v.accept with
  | none => simp
  | some l =>
    simp only [Bool.or_eq_true, List.isEmpty_iff, List.contains_iff_mem, didcommV2Profile, reduceCtorEq,
      Option.some.injEq, false_or, exists_eq_left']

/-- The usable service behind a document entry. -/
def usable? (s : Service) : Option (Str × DIDCommMessagingService) :=
  match s.endpoint with
  | .didCommMessaging v => if acceptsV2 v then some (s.id, v) else none
  | .other _ => none

theorem usable?_some {s : Service} {x : Str × DIDCommMessagingService} :
    usable? s = some x ↔ x.1 = s.id ∧ Usable s x.2 := by
  unfold usable? Usable
  cases h : s.endpoint with
  | other _ => simp
  | didCommMessaging v =>
    simp only [ServiceKind.didCommMessaging.injEq]
    split
    · rename_i ha
      obtain ⟨a, b⟩ := x
      simp only [Option.some.injEq, Prod.mk.injEq]
      constructor
      · rintro ⟨rfl, rfl⟩; exact ⟨rfl, rfl, (acceptsV2_iff _).1 ha⟩
      · rintro ⟨rfl, rfl, _⟩; exact ⟨rfl, rfl⟩
    · rename_i ha
      constructor
      · intro h; cases h
      · rintro ⟨_, rfl, h'⟩; exact absurd ((acceptsV2_iff _).2 h') ha

theorem usable?_none {s : Service} : usable? s = none ↔ ∀ v, ¬ Usable s v := by
  constructor
  · intro h v hv
    have := (usable?_some (x := (s.id, v))).2 ⟨rfl, hv⟩
    rw [h] at this; cases this
  · intro h
    cases hs : usable? s with
    | none => rfl
    | some x => exact absurd (usable?_some.1 hs).2 (h _)

theorem selectService_spec (services : List Service) (sid : Option Str) :
    Selects services sid (selectService services sid) := by
  cases sid with
  | none =>
    have : selectService services none = .ok (services.findSome? usable?) := rfl
    rw [this]
    cases h : services.findSome? usable? with
    | none =>
      rw [List.findSome?_eq_none_iff] at h
      exact .nothing fun s hs v hv => usable?_none.1 (h s hs) v hv
    | some x =>
      obtain ⟨pre, s, post, he, hs, hp⟩ := List.findSome?_eq_some_iff.1 h
      obtain ⟨h1, h2⟩ := usable?_some.1 hs
      obtain ⟨a, v⟩ := x
      simp only at h1; subst h1
      exact .first pre post s v he h2 fun s' hs' v' => usable?_none.1 (hp s' hs') v'
  | some sid =>
    simp only [selectService]
    cases h : services.find? (fun s => s.id == sid) with
    | none =>
      change Selects services (some sid) (.error (.kind .illegalArgument))
      rw [List.find?_eq_none] at h
      exact .missing sid fun s hs => by simpa using h s hs
    | some s =>
      obtain ⟨hs, pre, post, he, hp⟩ := List.find?_eq_some_iff_append.1 h
      have hs : s.id = sid := by simpa using hs
      have hp : ∀ s' ∈ pre, s'.id ≠ sid := fun s' hs' => by simpa using hp s' hs'
      have hu : ∀ r, (match s.endpoint with
          | .didCommMessaging v => if acceptsV2 v then .ok (some (s.id, v)) else fail .illegalArgument
          | .other _ => fail .illegalArgument : Res (Option (Str × DIDCommMessagingService))) = r →
          Selects services (some sid) r := by
        rintro r rfl
        cases hu : usable? s with
        | none =>
          have hx : ∀ v, ¬ Usable s v := usable?_none.1 hu
          have := Selects.unusable sid pre post s he hs hp hx
          unfold usable? at hu
          split
          · rename_i v hv
            rw [hv] at hu
            by_cases ha : acceptsV2 v
            · simp [ha] at hu
            · rw [if_neg ha]; exact this
          · exact this
        | some x =>
          obtain ⟨h1, h2⟩ := usable?_some.1 hu
          have := Selects.named sid pre post s x.2 he hs hp h2
          rw [h2.1]
          simp only [(acceptsV2_iff _).2 h2.2, if_true, hs]
          exact this
      exact hu _ rfl

/-- C38: looking for the service of a DID resolves the DID once, and selects a service of the
document as described by `Selects`. -/
theorem C38_selection (did : Str) (sid : Option Str) (tr : List Event)
    (r : Res (Option (Str × DIDCommMessagingService))) :
    Runs (findDidCommService did sid) tr r ↔
      (∃ k, tr = [⟨.resolve did, (.error k : Except ErrorKind (Option DIDDoc))⟩] ∧ r = .error (.kind k)) ∨
      (tr = [evResolve did none] ∧ r = .error (.kind .didNotResolved)) ∨
      (∃ doc, tr = [evResolve did (some doc)] ∧ r = selectService doc.service sid) := by
  unfold findDidCommService
  rw [runs_bind]
  constructor
  · rintro (⟨e, h, rfl⟩ | ⟨x, t1, t2, rfl, h, h2⟩)
    · rcases runs_resolve.1 h with ⟨x, -, hx⟩ | ⟨k, rfl, hx⟩
      · cases hx
      · cases hx; exact .inl ⟨k, rfl, rfl⟩
    · rcases runs_resolve.1 h with ⟨y, rfl, hx⟩ | ⟨k, -, hx⟩
      · cases hx
        rcases runs_lift_bind.1 h2 with ⟨e, h3, rfl, rfl⟩ | ⟨doc, h3, h4⟩
        · obtain ⟨rfl, rfl⟩ := okOr_eq_error.1 h3
          exact .inr (.inl ⟨rfl, rfl⟩)
        · obtain rfl := okOr_eq_ok.1 h3
          obtain ⟨rfl, rfl⟩ := runs_lift.1 h4
          exact .inr (.inr ⟨doc, rfl, rfl⟩)
      · cases hx
  · rintro (⟨k, rfl, rfl⟩ | ⟨rfl, rfl⟩ | ⟨doc, rfl, rfl⟩)
    · exact .inl ⟨_, runs_resolve.2 (.inr ⟨k, rfl, rfl⟩), rfl⟩
    · exact .inr ⟨none, [_], [], rfl, runs_resolve.2 (.inl ⟨none, rfl, rfl⟩), runs_lift_bind.2 (.inl ⟨_, rfl, rfl, rfl⟩)⟩
    · exact .inr ⟨some doc, [_], [], rfl, runs_resolve.2 (.inl ⟨some doc, rfl, rfl⟩),
        runs_lift_bind.2 (.inr ⟨doc, rfl, runs_lift.2 ⟨rfl, rfl⟩⟩)⟩

/-- C38: the result of the search satisfies the specification `Selects`, and nothing else is possible. -/
theorem C38_spec (did : Str) (sid : Option Str) (doc : DIDDoc) (r : Res (Option (Str × DIDCommMessagingService)))
    (h : Runs (findDidCommService did sid) [evResolve did (some doc)] r) : Selects doc.service sid r := by
  rcases (C38_selection _ _ _ _).1 h with ⟨k, hx, _⟩ | ⟨hx, _⟩ | ⟨d, hx, rfl⟩
  · cases hx
  · cases hx
  · cases hx; exact selectService_spec _ _

theorem append_cons_unique {α : Type} {P : α → Prop} {p1 p2 q1 q2 : List α} {x y : α}
    (h : p1 ++ x :: q1 = p2 ++ y :: q2) (h1 : ∀ a ∈ p1, ¬ P a) (h2 : ∀ a ∈ p2, ¬ P a) (hx : P x) (hy : P y) :
    p1 = p2 ∧ x = y ∧ q1 = q2 := by
  induction p1 generalizing p2 with
  | nil =>
    cases p2 with
    | nil => simp at h; simp [h]
    | cons a p2 => simp at h; exact absurd (h.1 ▸ hx) (h2 a (by simp))
  | cons a p1 ih =>
    cases p2 with
    | nil => simp at h; exact absurd (h.1 ▸ hy) (h1 a (by simp))
    | cons b p2 =>
      simp only [List.cons_append, List.cons.injEq] at h
      obtain ⟨e, h⟩ := h
      obtain ⟨a1, a2, a3⟩ := ih h (fun a ha => h1 a (by simp [ha])) (fun a ha => h2 a (by simp [ha]))
      exact ⟨by rw [e, a1], a2, a3⟩

theorem Usable.unique {s : Service} {v v' : DIDCommMessagingService} (h : Usable s v) (h' : Usable s v') : v = v' := by
  have := h.1.symm.trans h'.1
  cases this; rfl

/-- The specification determines the result. -/
theorem Selects.unique {services : List Service} {sid : Option Str} {r r' : Res (Option (Str × DIDCommMessagingService))}
    (h : Selects services sid r) (h' : Selects services sid r') : r = r' := by
  cases h with
  | first pre post s v he hu hp =>
    cases h' with
    | first pre' post' s' v' he' hu' hp' =>
      obtain ⟨rfl, rfl, rfl⟩ := append_cons_unique (P := fun s => ∃ v, Usable s v) (he.symm.trans he')
        (fun a ha ⟨v, hv⟩ => hp a ha v hv) (fun a ha ⟨v, hv⟩ => hp' a ha v hv) ⟨v, hu⟩ ⟨v', hu'⟩
      rw [hu.unique hu']
    | nothing hn => exact absurd hu (hn s (he ▸ by simp) v)
  | nothing hn =>
    cases h' with
    | first pre' post' s' v' he' hu' hp' => exact absurd hu' (hn s' (he' ▸ by simp) v')
    | nothing _ => rfl
  | named sid pre post s v he hi hp hu =>
    cases h' with
    | named _ pre' post' s' v' he' hi' hp' hu' =>
      obtain ⟨rfl, rfl, rfl⟩ := append_cons_unique (P := fun s => s.id = sid) (he.symm.trans he') hp hp' hi hi'
      rw [hu.unique hu']
    | unusable _ pre' post' s' he' hi' hp' hu' =>
      obtain ⟨rfl, rfl, rfl⟩ := append_cons_unique (P := fun s => s.id = sid) (he.symm.trans he') hp hp' hi hi'
      exact absurd hu (hu' v)
    | missing _ hm => exact absurd hi (hm s (he ▸ by simp))
  | unusable sid pre post s he hi hp hu =>
    cases h' with
    | named _ pre' post' s' v' he' hi' hp' hu' =>
      obtain ⟨rfl, rfl, rfl⟩ := append_cons_unique (P := fun s => s.id = sid) (he.symm.trans he') hp hp' hi hi'
      exact absurd hu' (hu v')
    | unusable _ _ _ _ _ _ _ _ => rfl
    | missing _ _ => rfl
  | missing sid hm =>
    cases h' with
    | named _ pre' post' s' v' he' hi' hp' hu' => exact absurd hi' (hm s' (he' ▸ by simp))
    | unusable _ _ _ _ _ _ _ _ => rfl
    | missing _ _ => rfl

/-- Each case of the specification occurs. -/
example : (∃ v, Selects World.bobDoc.service none (.ok (some (b!"did:example:bob#svc", v)))) ∧
    Selects World.aliceDoc.service none (.ok none) ∧
    (∃ v, Selects World.bobDoc.service (some b!"did:example:bob#svc") (.ok (some (b!"did:example:bob#svc", v)))) ∧
    Selects World.bobDoc.service (some b!"x") (.error (.kind .illegalArgument)) ∧
    Selects [⟨b!"x", .other .null⟩] (some b!"x") (.error (.kind .illegalArgument)) :=
  ⟨⟨_, selectService_spec World.bobDoc.service none⟩, selectService_spec World.aliceDoc.service none,
   ⟨_, selectService_spec World.bobDoc.service (some b!"did:example:bob#svc")⟩,
   selectService_spec World.bobDoc.service (some b!"x"), selectService_spec [⟨b!"x", .other .null⟩] (some b!"x")⟩

/-! ## C37: the chain of services -/

/-- C37: resolving the services of a recipient asks for at most two documents, the recipient's and
that of the mediator named by the endpoint of its service, and nothing else; it ends with no service,
with a service whose endpoint is not a DID, or with the mediator's service (whose endpoint is not a
DID) in front of one whose endpoint is a DID.  It never gets stuck, also not on cyclic documents. -/
theorem C37_chain (to : Str) (sid : Option Str) (tr : List Event)
    (r : Res (List (Str × DIDCommMessagingService))) (h : Runs (servicesChain to sid) tr r) :
    (∃ a, tr = [⟨.resolve (didOf to), a⟩] ∧
      ((∃ k, r = .error (.kind k)) ∨
       (∃ doc, a = (.ok (some doc) : Except ErrorKind (Option DIDDoc)) ∧ Selects doc.service sid (.ok none) ∧ r = .ok []) ∨
       (∃ doc s, a = (.ok (some doc) : Except ErrorKind (Option DIDDoc)) ∧ Selects doc.service sid (.ok (some s)) ∧
         r = .ok [s] ∧ ¬ LooksLikeDid s.2.uri))) ∨
    (∃ doc s b, tr = [evResolve (didOf to) (some doc), ⟨.resolve s.2.uri, b⟩] ∧
      Selects doc.service sid (.ok (some s)) ∧ LooksLikeDid s.2.uri ∧
      ((∃ k, r = .error (.kind k)) ∨
       (∃ doc' s', b = (.ok (some doc') : Except ErrorKind (Option DIDDoc)) ∧
         Selects doc'.service none (.ok (some s')) ∧ r = .ok [s', s] ∧ ¬ LooksLikeDid s'.2.uri))) := by
  unfold servicesChain at h
  rw [didOrUrl_fst] at h
  rcases runs_bind.1 h with ⟨e, hf, rfl⟩ | ⟨s, t1, t2, rfl, hf, h2⟩
  · rcases (C38_selection _ _ _ _).1 hf with ⟨k, rfl, hx⟩ | ⟨rfl, hx⟩ | ⟨doc, rfl, hx⟩
    · cases hx; exact .inl ⟨_, rfl, .inl ⟨k, rfl⟩⟩
    · cases hx; exact .inl ⟨_, rfl, .inl ⟨_, rfl⟩⟩
    · have := selectService_spec doc.service sid
      rw [← hx] at this
      cases this <;> exact .inl ⟨_, rfl, .inl ⟨_, rfl⟩⟩
  · rcases (C38_selection _ _ _ _).1 hf with ⟨k, rfl, hx⟩ | ⟨rfl, hx⟩ | ⟨doc, rfl, hx⟩
    · cases hx
    · cases hx
    · have hs := selectService_spec doc.service sid
      rw [← hx] at hs
      cases s with
      | none =>
        obtain ⟨rfl, rfl⟩ := runs_pure.1 h2
        exact .inl ⟨_, rfl, .inr (.inl ⟨doc, rfl, hs, rfl⟩)⟩
      | some s =>
        simp only [chainLoop] at h2
        split at h2
        · rename_i hd
          have hd := (C46_is_did _).1 hd
          rw [if_neg (by simp)] at h2
          rcases runs_bind.1 h2 with ⟨e, h3, rfl⟩ | ⟨s', t1, t2, rfl, h3, h4⟩
          · rcases (C38_selection _ _ _ _).1 h3 with ⟨k, rfl, hy⟩ | ⟨rfl, hy⟩ | ⟨doc', rfl, hy⟩
            · cases hy; exact .inr ⟨doc, s, _, rfl, hs, hd, .inl ⟨k, rfl⟩⟩
            · cases hy; exact .inr ⟨doc, s, _, rfl, hs, hd, .inl ⟨_, rfl⟩⟩
            · have := selectService_spec doc'.service none
              rw [← hy] at this
              cases this
          · rcases (C38_selection _ _ _ _).1 h3 with ⟨k, rfl, hy⟩ | ⟨rfl, hy⟩ | ⟨doc', rfl, hy⟩
            · cases hy
            · cases hy
            · have hs' := selectService_spec doc'.service none
              rw [← hy] at hs'
              rcases runs_lift_bind.1 h4 with ⟨e, h5, rfl, rfl⟩ | ⟨s', h5, h6⟩
              · obtain ⟨-, rfl⟩ := okOr_eq_error.1 h5
                exact .inr ⟨doc, s, _, rfl, hs, hd, .inl ⟨_, rfl⟩⟩
              · obtain rfl := okOr_eq_ok.1 h5
                split at h6
                · rw [if_pos (by simp)] at h6
                  obtain ⟨rfl, rfl⟩ := runs_fail.1 h6
                  exact .inr ⟨doc, s, _, rfl, hs, hd, .inl ⟨_, rfl⟩⟩
                · rename_i hd'
                  obtain ⟨rfl, rfl⟩ := runs_pure.1 h6
                  exact .inr ⟨doc, s, _, rfl, hs, hd, .inr ⟨doc', s', rfl, hs', rfl, fun h => hd' ((C46_is_did _).2 h)⟩⟩
        · rename_i hd
          obtain ⟨rfl, rfl⟩ := runs_pure.1 h2
          exact .inl ⟨_, rfl, .inr (.inr ⟨doc, s, rfl, hs, rfl, fun h => hd ((C46_is_did _).2 h)⟩)⟩

/-- C37: a mediator whose own endpoint is again a DID is refused with InvalidState, and so is a
mediator without a usable service. -/
theorem C37_recursive (to : Str) (sid : Option Str) (doc doc' : DIDDoc) (s : Str × DIDCommMessagingService)
    (hs : Selects doc.service sid (.ok (some s))) (hd : LooksLikeDid s.2.uri)
    (h' : Selects doc'.service none (.ok none) ∨ ∃ s', Selects doc'.service none (.ok (some s')) ∧ LooksLikeDid s'.2.uri)
    (r : Res (List (Str × DIDCommMessagingService)))
    (h : Runs (servicesChain to sid) [evResolve (didOf to) (some doc), evResolve s.2.uri (some doc')] r) :
    r = .error (.kind .invalidState) := by
  unfold servicesChain at h
  rw [didOrUrl_fst] at h
  have hs1 := hs.unique (selectService_spec _ _)
  rcases runs_bind.1 h with ⟨e, hf, rfl⟩ | ⟨s1, t1, t2, ht, hf, h2⟩
  · rcases (C38_selection _ _ _ _).1 hf with ⟨k, hx, _⟩ | ⟨hx, _⟩ | ⟨d, hx, _⟩ <;> cases hx
  rcases (C38_selection _ _ _ _).1 hf with ⟨k, rfl, hx⟩ | ⟨rfl, hx⟩ | ⟨d, rfl, hx⟩
  · cases hx
  · cases hx
  simp only [List.singleton_append, List.cons.injEq] at ht
  obtain ⟨ht, rfl⟩ := ht
  cases ht
  rw [← hs1] at hx
  cases hx
  simp only [chainLoop, (C46_is_did _).2 hd, if_true, List.length_singleton] at h2
  rw [if_neg (by omega)] at h2
  rcases runs_bind.1 h2 with ⟨e, h3, rfl⟩ | ⟨s2, t1, t2, ht, h3, h4⟩
  · rcases (C38_selection _ _ _ _).1 h3 with ⟨k, hy, _⟩ | ⟨hy, _⟩ | ⟨d, hy, h5⟩
    · cases hy
    · cases hy
    · cases hy
      rcases h' with h' | ⟨s', h', -⟩
      · rw [← h'.unique (selectService_spec _ _)] at h5; cases h5
      · rw [← h'.unique (selectService_spec _ _)] at h5; cases h5
  · rcases (C38_selection _ _ _ _).1 h3 with ⟨k, rfl, hy⟩ | ⟨rfl, hy⟩ | ⟨d, rfl, h5⟩
    · cases hy
    · cases hy
    · simp only [List.singleton_append, List.cons.injEq] at ht
      obtain ⟨ht, rfl⟩ := ht
      cases ht
      rcases h' with h' | ⟨s', h', hd'⟩
      · rw [← h'.unique (selectService_spec _ _)] at h5; cases h5
        rcases runs_lift_bind.1 h4 with ⟨e, h6, -, rfl⟩ | ⟨s', h6, h7⟩
        · obtain ⟨-, rfl⟩ := okOr_eq_error.1 h6; rfl
        · cases okOr_eq_ok.1 h6
      · rw [← h'.unique (selectService_spec _ _)] at h5; cases h5
        rcases runs_lift_bind.1 h4 with ⟨e, h6, -, rfl⟩ | ⟨s'', h6, h7⟩
        · obtain ⟨h8, -⟩ := okOr_eq_error.1 h6; cases h8
        · cases okOr_eq_ok.1 h6
          rw [if_pos ((C46_is_did _).2 hd'), if_pos (by simp)] at h7
          exact (runs_fail.1 h7).2

/-- The document of a mediator that refers to itself: the chain of `C37_recursive` occurs. -/
example : let doc : DIDDoc := { World.mediatorDoc with
      service := [⟨b!"s", .didCommMessaging ⟨World.mediator, none, []⟩⟩] }
    Selects doc.service none (.ok (some (b!"s", ⟨World.mediator, none, []⟩))) ∧ LooksLikeDid World.mediator ∧
    Runs (servicesChain World.mediator none) [evResolve World.mediator (some doc), evResolve World.mediator (some doc)]
      (.error (.kind .invalidState)) := by
  intro doc
  refine ⟨selectService_spec doc.service none, (C46_is_did _).1 (by decide), ?_⟩
  exact (Prog.run_spec (World.envOf [doc] []) id (servicesChain World.mediator none)).1

/-- Bob's chain in the concrete world consists of the mediator's and Bob's service. -/
example : ∃ tr s1 s2, Runs (servicesChain World.bob none) tr (.ok [s1, s2]) ∧ tr.length = 2 ∧
    s1.2.uri = b!"https://example.com" ∧ s2.2.uri = World.mediator :=
  ⟨_, (b!"did:example:mediator#svc", ⟨b!"https://example.com", none, []⟩),
    (b!"did:example:bob#svc", ⟨World.mediator, some [b!"didcomm/v2"], [b!"did:example:mediator#x1"]⟩),
    (Prog.run_spec World.env id (servicesChain World.bob none)).1, rfl, rfl, rfl⟩

/-! ## C41: forward messages -/

theorem hmInsert_mem {α : Type} {k : Str} {v : α} {m : List (Str × α)} {x : Str × α} (h : x ∈ hmInsert k v m) :
    x = (k, v) ∨ x ∈ m := by
  induction m with
  | nil => simpa [hmInsert] using h
  | cons p r ih =>
    obtain ⟨k1, v1⟩ := p
    simp only [hmInsert] at h
    split at h
    · rename_i hk
      rcases List.mem_cons.1 h with h | h
      · first | exact .inl h | exact .inl (by simp_all)
      · exact .inr (by simp [h])
    · rcases List.mem_cons.1 h with h | h
      · exact .inr (by simp [h])
      · rcases ih h with h | h
        · exact .inl h
        · exact .inr (by simp [h])

theorem hmInsert_self {α : Type} (k : Str) (v : α) (m : List (Str × α)) : (k, v) ∈ hmInsert k v m := by
  induction m with
  | nil => simp [hmInsert]
  | cons p r ih =>
    obtain ⟨k1, v1⟩ := p
    simp only [hmInsert]
    split
    · rename_i hk; simp_all
    · simp [ih]

theorem hmInsert_other {α : Type} {k : Str} {v : α} {m : List (Str × α)} {x : Str × α} (h : x ∈ m) (hk : x.1 ≠ k) :
    x ∈ hmInsert k v m := by
  induction m with
  | nil => cases h
  | cons p r ih =>
    obtain ⟨k1, v1⟩ := p
    simp only [hmInsert]
    rcases List.mem_cons.1 h with rfl | h
    · split
      · rename_i e; exact absurd (by simpa [eq_comm] using e) hk
      · simp
    · split
      · simp [h]
      · simp [ih h]

theorem addHeaders_fields (b : MessageBuilder) (l : List (Str × Value)) :
    addHeaders b l = { b with extraHeaders := (addHeaders b l).extraHeaders } ∧
    (∀ x ∈ (addHeaders b l).extraHeaders, x ∈ l ∨ x ∈ b.extraHeaders) ∧
    ((l.map Prod.fst).Nodup → ∀ x, (x ∈ l ∨ (x ∈ b.extraHeaders ∧ x.1 ∉ l.map Prod.fst)) →
      x ∈ (addHeaders b l).extraHeaders) := by
  induction l generalizing b with
  | nil => exact ⟨rfl, fun x h => .inr h, fun _ x h => by simpa [addHeaders] using h⟩
  | cons p r ih =>
    obtain ⟨k, v⟩ := p
    obtain ⟨h1, h2, h3⟩ := ih (b.header k v)
    refine ⟨?_, ?_, ?_⟩
    · simp only [addHeaders]
      rw [h1]
      rfl
    · intro x hx
      simp only [addHeaders] at hx
      rcases h2 x hx with h | h
      · exact .inl (by simp [h])
      · rcases hmInsert_mem h with rfl | h
        · exact .inl (by simp)
        · exact .inr h
    · intro hn x hx
      simp only [List.map_cons, List.nodup_cons] at hn
      simp only [addHeaders]
      apply h3 hn.2
      rcases hx with hx | ⟨hx, hk⟩
      · rcases List.mem_cons.1 hx with rfl | hx
        · exact .inr ⟨hmInsert_self _ _ _, hn.1⟩
        · exact .inl hx
      · simp only [List.map_cons, List.mem_cons, not_or] at hk
        exact .inr ⟨hmInsert_other hx hk.1, hk.2⟩

/-- The parts of the forward message the library builds. -/
theorem forwardMessage_fields (id : Str) (v : Value) (next : Str) (headers : Option (List (Str × Value))) :
    ∃ x, forwardMessage id v next headers =
      { id := id, type_ := b!"https://didcomm.org/routing/2.0/forward", body := .obj [(b!"next", .str next)]
        extraHeaders := x, attachments := some [{ data := .json v none }] } ∧
      SameHeaders headers x := by
  obtain ⟨h1, h2, h3⟩ := addHeaders_fields (MessageBuilder.new id forwardMsgType (.obj [(b!"next", .str next)])) (headers.getD [])
  refine ⟨(addHeaders (MessageBuilder.new id forwardMsgType (.obj [(b!"next", .str next)])) (headers.getD [])).extraHeaders,
    ?_, ?_⟩
  · generalize (addHeaders (MessageBuilder.new id forwardMsgType (.obj [(b!"next", .str next)])) (headers.getD [])).extraHeaders
      = x at h1
    simp only [forwardMessage]
    rw [h1]
    rfl
  · intro hn h
    constructor
    · intro hw
      rcases h2 _ hw with hx | hx
      · exact hx
      · cases hx
    · intro hw
      exact h3 hn h (.inl hw)

/-- C41: parsing a forward message gives back what it was built from. -/
theorem C41_inverse (id : Str) (v : Value) (next : Str) (headers : Option (List (Str × Value))) :
    tryParseForward (forwardMessage id v next headers) = some ⟨next, v⟩ := by
  obtain ⟨x, h, -⟩ := forwardMessage_fields id v next headers
  rw [h]
  rfl

/-- C41: only a message of the forward type, with a text `next` in its body and a first attachment
with JSON data, is a forward. -/
theorem C41_only (m : Message) (next : Str) (v : Value) :
    tryParseForward m = some ⟨next, v⟩ ↔
      m.type_ = b!"https://didcomm.org/routing/2.0/forward" ∧
      (∃ l, m.body = .obj l ∧ l.lookup b!"next" = some (.str next)) ∧
      (∃ a r jws, m.attachments = some (a :: r) ∧ a.data = .json v jws) := by
  have h1 : forwardNext m = some next ↔ ∃ l, m.body = .obj l ∧ l.lookup b!"next" = some (.str next) := by
    unfold forwardNext Value.getStr
    cases m.body <;> simp only [reduceCtorEq, false_and, exists_false, Value.obj.injEq, exists_eq_left']
    rename_i l
    induction l with
    | nil => simp
    | cons p r ih =>
      obtain ⟨k, v⟩ := p
      by_cases hk : k = b!"next"
      · subst hk
        simp only [List.find?_cons, beq_self_eq_true, List.lookup]
        cases v <;> simp
      · have h1 : (k == b!"next") = false := by simpa using hk
        have h2 : (b!"next" == k) = false := by simpa using Ne.symm hk
        simp only [List.find?_cons, h1, List.lookup, h2]
        exact ih
  have h2 : forwardPayload m = some v ↔ ∃ a r jws, m.attachments = some (a :: r) ∧ a.data = .json v jws := by
    unfold forwardPayload
    rcases m.attachments with _ | _ | ⟨a, r⟩
    · simp
    · simp
    · simp only [Option.some.injEq, List.cons.injEq]
      constructor
      · intro h
        cases hd : a.data with
        | json w jws => rw [hd] at h; cases h; exact ⟨a, r, jws, ⟨rfl, rfl⟩, hd⟩
        | base64 b jws => rw [hd] at h; cases h
        | links l x jws => rw [hd] at h; cases h
      · rintro ⟨a', r', jws, ⟨rfl, rfl⟩, hd⟩
        rw [hd]
  rw [← h1, ← h2]
  unfold tryParseForward
  by_cases ht : m.type_ = forwardMsgType
  · rw [if_neg (by simpa using ht)]
    simp only [Option.bind_eq_bind, Option.bind_eq_some_iff, Option.some.injEq, ParsedForward.mk.injEq]
    constructor
    · rintro ⟨a, h, b, h', rfl, rfl⟩; exact ⟨ht, h, h'⟩
    · rintro ⟨-, h, h'⟩; exact ⟨next, h, v, h', rfl, rfl⟩
  · rw [if_pos ht]
    exact ⟨fun h => (by cases h), fun h => absurd h.1 ht⟩

/-- C41: the same after the message has been written and read again. -/
theorem C41_written (id : Str) (v : Value) (next : Str) (headers : Option (List (Str × Value))) (f64 : Str → Option Str)
    (h : (forwardMessage id v next headers).WF f64) :
    ∃ m, fromJson (dMessage f64) (forwardMessage id v next headers).toJson.print = .ok m ∧
      tryParseForward m = some ⟨next, v⟩ :=
  ⟨_, C54_preserved _ h, C41_inverse _ _ _ _⟩

/-- A forward message with a header meets the hypothesis of `C41_written`. -/
example : (forwardMessage b!"1" (.obj [(b!"a", .null)]) World.bob (some [(b!"x", .bool true)])).WF some := by
  constructor <;> simp [forwardMessage, addHeaders, MessageBuilder.new, MessageBuilder.header, hmInsert,
    MessageBuilder.addAttachment, MessageBuilder.finalize, OptUtf8, Value.WF, Value.WFM, Value.depth, Value.depthM,
    SortedKeys, AttachmentBuilder.finalize, AttachmentBuilder.json, forwardMsgType, plaintextTyp, World.bob] <;>
    try decide
  constructor <;> simp [AttachmentData.WF, OptUtf8, Value.WF, Value.WFM, Value.depth, Value.depthM, SortedKeys] ; decide

/-! ## C39: wrapping -/

theorem wrapLoop_append (headers : Option (List (Str × Value))) (alg : AnonCryptAlg) (l1 l2 : List (Str × Str))
    (msg : Str) (tr : List Event) (out : Str) :
    Runs (wrapLoop C headers alg (l1 ++ l2) msg) tr (.ok out) ↔
      ∃ mid t1 t2, tr = t1 ++ t2 ∧ Runs (wrapLoop C headers alg l1 msg) t1 (.ok mid) ∧
        Runs (wrapLoop C headers alg l2 mid) t2 (.ok out) := by
  induction l1 generalizing msg tr with
  | nil =>
    simp only [List.nil_append, wrapLoop, runs_pure, Except.ok.injEq]
    constructor
    · intro h; exact ⟨msg, [], tr, rfl, ⟨rfl, rfl⟩, h⟩
    · rintro ⟨mid, t1, t2, rfl, ⟨rfl, rfl⟩, h⟩; exact h
  | cons p r ih =>
    obtain ⟨a, b⟩ := p
    simp only [List.cons_append, wrapLoop, runs_bind_ok, ih, Prod.exists]
    constructor
    · rintro ⟨f, u1, u2, rfl, h1, o, k, u3, u4, rfl, h2, mid, t1, t2, rfl, h3, h4⟩
      exact ⟨mid, u1 ++ (u3 ++ t1), t2, by simp, ⟨f, u1, _, rfl, h1, o, k, u3, t1, rfl, h2, h3⟩, h4⟩
    · rintro ⟨mid, t1, t2, rfl, ⟨f, u1, u2, rfl, h1, o, k, u3, u4, rfl, h2, h3⟩, h4⟩
      exact ⟨f, u1, u3 ++ (u4 ++ t2), by simp, h1, o, k, u3, u4 ++ t2, rfl, h2, mid, u4, t2, rfl, h3, h4⟩

theorem reverse_zip {α β : Type} {l : List α} {l' : List β} (h : l.length = l'.length) :
    l.reverse.zip l'.reverse = (l.zip l').reverse := by
  induction l generalizing l' with
  | nil => simp
  | cons a l ih =>
    cases l' with
    | nil => simp at h
    | cons b l' =>
      simp only [List.length_cons, Nat.add_right_cancel_iff] at h
      rw [List.reverse_cons, List.reverse_cons, List.zip_append (by simp [h]), ih h]
      simp

theorem wrapInForward_onion {headers : Option (List (Str × Value))} {alg : AnonCryptAlg} {to msg : Str}
    {keys : List Str} {tr : List Event} {out : Str}
    (h : Runs (wrapInForward C msg headers to keys alg) tr (.ok out)) :
    keys ≠ [] ∧ Onion C headers alg to msg keys out := by
  cases keys with
  | nil => cases (runs_ret.1 h).2
  | cons k ks =>
    refine ⟨by simp, ?_⟩
    unfold wrapInForward at h
    have hz : ((k :: ks).reverse.zip (ks ++ [to]).reverse) = ((k :: ks).zip (ks ++ [to])).reverse := by
      exact reverse_zip (by simp)
    simp only [hz] at h
    clear hz
    have hone : ∀ k next mid tr out, Runs (wrapLoop C headers alg [(k, next)] mid) tr (.ok out) →
        ∃ (payload : Value) (fwd : Message) (tr : List Event) (kids : List Str),
          fromJson (toValue C.f64) mid = .ok payload ∧
          fwd.type_ = b!"https://didcomm.org/routing/2.0/forward" ∧
          fwd.body = .obj [(b!"next", .str next)] ∧
          fwd.attachments = some [{ data := .json payload none }] ∧
          SameHeaders headers fwd.extraHeaders ∧
          Runs (anoncrypt C k fwd.toJson.print alg) tr (.ok (out, kids)) := by
      intro k next mid tr out h
      simp only [wrapLoop, buildForwardMessage, runs_ok] at h
      obtain ⟨f, u1, u2, rfl, ⟨v, hv, r, t, rfl, rfl, rfl⟩, o, kids, u3, u4, rfl, h2, rfl, rfl⟩ := h
      obtain ⟨x, hx, hs⟩ := forwardMessage_fields (C.uuid r) v next headers
      refine ⟨v, forwardMessage (C.uuid r) v next headers, u3, kids, hv, ?_, ?_, ?_, ?_, h2⟩
      · rw [hx]
      · rw [hx]
      · rw [hx]
      · rw [hx]; exact hs
    induction ks generalizing k tr out with
    | nil =>
      obtain ⟨v, fwd, tr, kids, h1, h2, h3, h4, h5, h6⟩ := hone _ _ _ _ _ (by simpa using h)
      exact ⟨msg, v, fwd, tr, kids, rfl, h1, h2, h3, h4, h5, h6⟩
    | cons k2 ks ih =>
      simp only [List.cons_append, List.zip_cons_cons, List.reverse_cons] at h
      rw [wrapLoop_append] at h
      obtain ⟨mid, t1, t2, rfl, ha, hb⟩ := h
      obtain ⟨v, fwd, tr, kids, h1, h2, h3, h4, h5, h6⟩ := hone _ _ _ _ _ hb
      exact ⟨mid, v, fwd, tr, kids, ih k2 (by simpa using ha), h1, h2, h3, h4, h5, h6⟩

/-- The route computed by the library. -/
theorem chainRoutingKeys_eq {chain : List (Str × DIDCommMessagingService)} (h : chain.length ≤ 2) :
    chainRoutingKeys chain = routeOf chain := by
  rcases chain with _ | ⟨a, _ | ⟨b, _ | ⟨c, r⟩⟩⟩
  · rfl
  · rfl
  · rfl
  · simp at h

/-- C39: a packed message is wrapped in forwards exactly when forwarding is on and the services found
lead through routing keys; then it is the onion along exactly these keys, and the metadata names the
recipient's service and the transport endpoint.  Otherwise the text is the envelope itself. -/
theorem C39_forwarding (m : Message) (to : Str) (from_ signBy : Option Str) (opts : PackEncryptedOptions)
    (tr : List Event) (out : Str) (md : PackEncryptedMetadata)
    (hr : Runs (packEncrypted C m to from_ signBy opts) tr (.ok (out, md))) :
    ∃ env hdr, IsJwe env hdr md.toKids ∧
      ((opts.forward = false ∧ md.messagingService = none ∧ out = env) ∨
       (opts.forward = true ∧ ∃ pre t post chain, tr = pre ++ t ++ post ∧
          Runs (servicesChain to opts.messagingService) t (.ok chain) ∧
          ((routeOf chain = [] ∧ md.messagingService = none ∧ out = env ∧ post = []) ∨
           (routeOf chain ≠ [] ∧
            (∃ first last, chain.head? = some first ∧ chain.getLast? = some last ∧
              md.messagingService = some ⟨last.1, first.2.uri⟩ ∧ ¬ LooksLikeDid first.2.uri) ∧
            Onion C opts.forwardHeaders opts.encAlgAnon to env (routeOf chain) out)))) := by
  obtain ⟨t1, t2, t3, inner, sk, env, fk, tk, w, rfl, h0, h1, h2, h3, hmd⟩ := packEncrypted_ok.1 hr
  have henv : ∃ hdr, IsJwe env hdr tk := by
    have hx : Runs (packEncrypted C m to from_ signBy { opts with forward := false }) (t1 ++ t2 ++ [])
        (.ok (env, ⟨none, fk, sk, tk⟩)) := by
      refine packEncrypted_ok.2 ⟨t1, t2, [], inner, sk, env, fk, tk, none, rfl, h0, h1, h2, ?_, .inl ⟨rfl, rfl, rfl⟩⟩
      unfold wrapInForwardIfNeeded
      rw [if_pos rfl]
      exact runs_pure.2 ⟨rfl, rfl⟩
    obtain ⟨hdr, h, _⟩ := C36_wire _ _ _ _ _ _ _ _ hx rfl
    exact ⟨hdr, h⟩
  obtain ⟨hdr, henv⟩ := henv
  have htk : md.toKids = tk := by rcases hmd with ⟨-, -, rfl⟩ | ⟨_, -, rfl⟩ <;> rfl
  refine ⟨env, hdr, htk ▸ henv, ?_⟩
  unfold wrapInForwardIfNeeded at h3
  cases hf : opts.forward with
  | false =>
    rw [if_pos hf] at h3
    obtain ⟨-, h3⟩ := runs_pure.1 h3
    cases h3
    rcases hmd with ⟨-, rfl, rfl⟩ | ⟨_, h, -⟩
    · exact .inl ⟨rfl, rfl, rfl⟩
    · cases h
  | true =>
    rw [if_neg (by simp [hf])] at h3
    rw [runs_bind_ok] at h3
    obtain ⟨chain, u1, u2, rfl, hc, h3⟩ := h3
    refine .inr ⟨rfl, t1 ++ t2, u1, u2, chain, by simp, hc, ?_⟩
    have hlen : chain.length ≤ 2 ∧ (∀ f, chain.head? = some f → ¬ LooksLikeDid f.2.uri) := by
      rcases C37_chain _ _ _ _ hc with ⟨_, -, ⟨k, h⟩ | ⟨_, -, -, h⟩ | ⟨_, s, -, -, h, hd⟩⟩ | ⟨_, s, _, -, -, -, ⟨k, h⟩ | ⟨_, s', -, -, h, hd⟩⟩
      · cases h
      · cases h; simp
      · cases h; exact ⟨by simp, by simpa using hd⟩
      · cases h
      · cases h; exact ⟨by simp, by simpa using hd⟩
    rw [chainRoutingKeys_eq hlen.1] at h3
    have hnone : u2 = [] → w = none → md.messagingService = none ∧ out = env ∧ u2 = [] := by
      rintro rfl rfl
      rcases hmd with ⟨-, rfl, rfl⟩ | ⟨_, h, -⟩
      · exact ⟨rfl, rfl, rfl⟩
      · cases h
    cases hh : chain.head? with
    | none =>
      obtain rfl := List.head?_eq_none_iff.1 hh
      obtain ⟨e1, e2⟩ := runs_pure.1 h3
      cases e2
      exact .inl ⟨rfl, hnone e1 rfl⟩
    | some first =>
      cases hl : chain.getLast? with
      | none =>
        obtain rfl := List.getLast?_eq_none_iff.1 hl
        cases hh
      | some last =>
        rw [hh, hl] at h3
        simp only at h3
        split at h3
        · rename_i he
          obtain ⟨e1, e2⟩ := runs_pure.1 h3
          cases e2
          exact .inl ⟨List.isEmpty_iff.1 he, hnone e1 rfl⟩
        · rename_i he
          rw [runs_bind_ok] at h3
          obtain ⟨fwd, v1, v2, rfl, hw, h4⟩ := h3
          obtain ⟨rfl, h4⟩ := runs_pure.1 h4
          cases h4
          rcases hmd with ⟨h, -⟩ | ⟨svc, h, rfl⟩
          · cases h
          · cases h
            exact .inr ⟨fun h => he (List.isEmpty_iff.2 h), ⟨first, last, rfl, rfl, rfl, hlen.2 _ hh⟩,
              (wrapInForward_onion hw).2⟩

set_option maxRecDepth 100000 in
/-- In the concrete world Bob's messages go through two layers. -/
example : ∃ tr out md, Runs (packEncrypted Toy.crypto World.msg World.bob none none {}) tr (.ok (out, md)) ∧
    md.messagingService = some ⟨b!"did:example:bob#svc", b!"https://example.com"⟩ := by
  obtain ⟨tr, ⟨out, md⟩, h, _, hk⟩ := World.of_test (E := World.env)
    (p := packEncrypted Toy.crypto World.msg World.bob none none {})
    (P := fun x => decide (x.2.messagingService = some ⟨b!"did:example:bob#svc", b!"https://example.com"⟩))
    (by decide +kernel)
  exact ⟨tr, out, md, h, of_decide_eq_true hk⟩

end DIDComm
