import Verif.Props.Routing
import Verif.Props.Negotiation
import Verif.Proofs.WorldRuns

/-!
# C104: forwarding can be done by hand and in stages
-/

set_option autoImplicit false

namespace DIDComm

variable {C : Crypto} {α β γ : Type}

/-- What happens to an envelope `out` with metadata `md` that was packed for `to`, if its sender then looks up the services of `to` and
wraps the envelope along the route found, if there is one. -/
inductive ThenForwarded (C : Crypto) (out : Str) (md : PackEncryptedMetadata) (to : Str) (opts : PackEncryptedOptions) :
    List Event → Res (Str × PackEncryptedMetadata) → Prop
  /-- looking up the services failed -/
  | failed (t : List Event) (e : Err) (h : Runs (servicesChain to opts.messagingService) t (.error e)) :
      ThenForwarded C out md to opts t (.error e)
  /-- there is no route: the envelope as it is -/
  | direct (t : List Event) (chain : List (Str × DIDCommMessagingService))
      (h : Runs (servicesChain to opts.messagingService) t (.ok chain)) (hr : routeOf chain = []) :
      ThenForwarded C out md to opts t (.ok (out, md))
  /-- there is a route: the result of `wrap_in_forward`, and the service and the endpoint in the metadata -/
  | wrapped (t t' : List Event) (chain : List (Str × DIDCommMessagingService)) (first last : Str × DIDCommMessagingService) (r : Res Str)
      (h : Runs (servicesChain to opts.messagingService) t (.ok chain)) (hr : routeOf chain ≠ [])
      (h1 : chain.head? = some first) (h2 : chain.getLast? = some last)
      (h3 : Runs (wrapInForward C out opts.forwardHeaders to (routeOf chain) opts.encAlgAnon) t' r) :
      ThenForwarded C out md to opts (t ++ t')
        (r.map fun f => (f, { md with messagingService := some ⟨last.1, first.2.uri⟩ }))

/-! ## Laws of programs -/

theorem Prog.assoc (p : Prog α) (f : α → Prog β) (g : β → Prog γ) : (p >>= f) >>= g = p >>= fun a => f a >>= g := by
  change (p.bind f).bind g = p.bind fun a => (f a).bind g
  induction p with
  | ret r => cases r <;> rfl
  | ask q k ih => simp only [Prog.bind, ih]

theorem Prog.pure_bind_eq (a : α) (f : α → Prog β) : (pure a : Prog α) >>= f = f a := rfl

theorem Prog.bind_pure_eq (p : Prog α) : (p >>= fun a => pure a) = p := by
  change p.bind (fun a => .ret (.ok a)) = p
  induction p with
  | ret r => cases r <;> rfl
  | ask q k ih => simp only [Prog.bind, ih]

theorem wrapLoop_stages (headers : Option (List (Str × Value))) (alg : AnonCryptAlg) (l1 l2 : List (Str × Str)) (msg : Str) :
    wrapLoop C headers alg (l1 ++ l2) msg = wrapLoop C headers alg l1 msg >>= fun mid => wrapLoop C headers alg l2 mid := by
  induction l1 generalizing msg with
  | nil => rfl
  | cons x l1 ih =>
    obtain ⟨k, next⟩ := x
    simp only [List.cons_append, wrapLoop, Prog.assoc]
    simp only [ih]

theorem packEncrypted_then (m : Message) (to : Str) (from_ signBy : Option Str) (opts : PackEncryptedOptions) :
    packEncrypted C m to from_ signBy opts =
      packEncrypted C m to from_ signBy { opts with forward := false } >>= fun x =>
        wrapInForwardIfNeeded C x.1 to opts >>= fun w =>
          match w with
          | some (fwd, svc) => pure (fwd, { x.2 with messagingService := some svc })
          | none => pure x := by
  have hc : ∀ msg, packCrypt C to from_ msg { opts with forward := false } = packCrypt C to from_ msg opts := fun _ => by cases from_ <;> rfl
  have hw : ∀ msg, wrapInForwardIfNeeded C msg to { opts with forward := false } = pure none := fun _ => by
    unfold wrapInForwardIfNeeded; rw [if_pos rfl]
  unfold packEncrypted
  simp only [Prog.assoc, hc, hw, Prog.pure_bind_eq]
  rfl

/-! ## C104 -/

/-- C104: wrapping along a route is wrapping along its end and then along its beginning, with the first key of the end as the one to
forward to: the same questions, the same draws and the same result, whatever it is. -/
theorem C104_stages (msg to k : Str) (headers : Option (List (Str × Value))) (alg : AnonCryptAlg) (start end_ : List Str)
    (hs : start ≠ []) (tr : List Event) (r : Res Str) :
    Runs (wrapInForward C msg headers to (start ++ k :: end_) alg) tr r ↔
      (∃ e, Runs (wrapInForward C msg headers to (k :: end_) alg) tr (.error e) ∧ r = .error e) ∨
      ∃ mid t1 t2, tr = t1 ++ t2 ∧ Runs (wrapInForward C msg headers to (k :: end_) alg) t1 (.ok mid) ∧
        Runs (wrapInForward C mid headers k start alg) t2 r := by
  have e : wrapInForward C msg headers to (start ++ k :: end_) alg =
      wrapInForward C msg headers to (k :: end_) alg >>= fun mid => wrapInForward C mid headers k start alg := by
    cases start with
    | nil => exact absurd rfl hs
    | cons k1 ks =>
      have z : ∀ (a : Str) (l : List Str) (x : Str), ((a :: l).reverse.zip (l ++ [x]).reverse) = ((a :: l).zip (l ++ [x])).reverse :=
        fun a l x => reverse_zip (by simp)
      unfold wrapInForward
      simp only [List.cons_append]
      rw [z, z, ← wrapLoop_stages]
      congr 1
      rw [z, ← List.reverse_append]
      congr 1
      rw [show ks ++ k :: end_ ++ [to] = (ks ++ [k]) ++ (end_ ++ [to]) by simp,
        show k1 :: (ks ++ k :: end_) = (k1 :: ks) ++ (k :: end_) by simp, List.zip_append (by simp)]
  rw [e, runs_bind]

/-- C104: `pack_encrypted` with forwarding is `pack_encrypted` without, then looking up the services of the recipient, then
`wrap_in_forward` along the route found: the same questions, the same draws and the same result, whatever it is. -/
theorem C104_by_hand (m : Message) (to : Str) (from_ signBy : Option Str) (opts : PackEncryptedOptions) (hf : opts.forward = true)
    (tr : List Event) (r : Res (Str × PackEncryptedMetadata)) :
    Runs (packEncrypted C m to from_ signBy opts) tr r ↔
      (∃ e, Runs (packEncrypted C m to from_ signBy { opts with forward := false }) tr (.error e) ∧ r = .error e) ∨
      ∃ out md t1 t2, tr = t1 ++ t2 ∧ Runs (packEncrypted C m to from_ signBy { opts with forward := false }) t1 (.ok (out, md)) ∧
        ThenForwarded C out md to opts t2 r := by
  have key : ∀ (out : Str) (md : PackEncryptedMetadata) (t2 : List Event),
      Runs (wrapInForwardIfNeeded C out to opts >>= fun w =>
          match w with
          | some (fwd, svc) => pure (fwd, { md with messagingService := some svc })
          | none => pure (out, md)) t2 r ↔ ThenForwarded C out md to opts t2 r := by
    intro out md t2
    have hn : ¬ opts.forward = false := by simp [hf]
    unfold wrapInForwardIfNeeded
    rw [if_neg hn, Prog.assoc, runs_bind]
    constructor
    · rintro (⟨e, h, rfl⟩ | ⟨chain, t, t', rfl, h, h'⟩)
      · exact .failed _ _ h
      have hlen : chain.length ≤ 2 := by
        rcases C37_chain _ _ _ _ h with ⟨_, -, ⟨k, h⟩ | ⟨_, -, -, h⟩ | ⟨_, s, -, -, h, hd⟩⟩ | ⟨_, s, _, -, -, -, ⟨k, h⟩ | ⟨_, s', -, -, h, hd⟩⟩
        all_goals cases h
        all_goals simp
      rw [chainRoutingKeys_eq hlen] at h'
      split at h'
      · rename_i first last h1 h2
        dsimp only at h'
        split at h'
        · rename_i he
          rw [Prog.pure_bind_eq] at h'
          obtain ⟨rfl, rfl⟩ := runs_pure.1 h'
          rw [List.append_nil]
          exact .direct _ chain h (by simpa using he)
        · rename_i he
          rw [Prog.assoc, runs_bind] at h'
          rcases h' with ⟨e, h3, rfl⟩ | ⟨f, u, u', rfl, h3, h4⟩
          · exact .wrapped t t' chain first last (.error e) h (by simpa using he) h1 h2 h3
          · rw [Prog.pure_bind_eq] at h4
            obtain ⟨rfl, rfl⟩ := runs_pure.1 h4
            rw [List.append_nil]
            exact .wrapped t u chain first last (.ok f) h (by simpa using he) h1 h2 h3
      · rename_i hno
        rw [Prog.pure_bind_eq] at h'
        obtain ⟨rfl, rfl⟩ := runs_pure.1 h'
        rw [List.append_nil]
        refine .direct _ chain h ?_
        cases chain with
        | nil => rfl
        | cons a l =>
          have hl : ∃ b, (a :: l).getLast? = some b := by simp [List.getLast?_cons]
          obtain ⟨b, hb⟩ := hl
          exact absurd hb (hno a b rfl)
    · intro h
      cases h with
      | failed _ e h => exact .inl ⟨e, h, rfl⟩
      | direct _ chain h hr =>
        refine .inr ⟨chain, t2, [], by simp, h, ?_⟩
        have hlen : chain.length ≤ 2 := by
          rcases C37_chain _ _ _ _ h with ⟨_, -, ⟨k, h⟩ | ⟨_, -, -, h⟩ | ⟨_, s, -, -, h, hd⟩⟩ | ⟨_, s, _, -, -, -, ⟨k, h⟩ | ⟨_, s', -, -, h, hd⟩⟩
          all_goals cases h
          all_goals simp
        rw [chainRoutingKeys_eq hlen, hr]
        split
        · dsimp only
          rw [if_pos (show ([] : List Str).isEmpty = true from rfl)]
          exact runs_pure.2 ⟨rfl, rfl⟩
        · exact runs_pure.2 ⟨rfl, rfl⟩
      | wrapped t t' chain first last r h hr h1 h2 h3 =>
        refine .inr ⟨chain, t, t', rfl, h, ?_⟩
        have hlen : chain.length ≤ 2 := by
          rcases C37_chain _ _ _ _ h with ⟨_, -, ⟨k, h⟩ | ⟨_, -, -, h⟩ | ⟨_, s, -, -, h, hd⟩⟩ | ⟨_, s, _, -, -, -, ⟨k, h⟩ | ⟨_, s', -, -, h, hd⟩⟩
          all_goals cases h
          all_goals simp
        rw [chainRoutingKeys_eq hlen, h1, h2]
        dsimp only
        rw [if_neg (by simpa using hr), Prog.assoc, runs_bind]
        cases r with
        | error e => exact .inl ⟨e, h3, rfl⟩
        | ok f => exact .inr ⟨f, t', [], by simp, h3, runs_pure.2 ⟨rfl, rfl⟩⟩
  rw [packEncrypted_then, runs_bind]
  constructor
  · rintro (h | ⟨⟨out, md⟩, t1, t2, rfl, h1, h2⟩)
    · exact .inl h
    · exact .inr ⟨out, md, t1, t2, rfl, h1, (key out md t2).1 h2⟩
  · rintro (h | ⟨out, md, t1, t2, rfl, h1, h2⟩)
    · exact .inl h
    · exact .inr ⟨⟨out, md⟩, t1, t2, rfl, h1, (key out md t2).2 h2⟩

set_option maxRecDepth 100000 in
/-- Alice's message to Bob is wrapped along a route of two keys. -/
example : ∃ tr out md t1 t2 out' md', Runs (packEncrypted Toy.crypto World.msg World.bob (some World.alice) none {}) (t1 ++ t2) (.ok (out, md)) ∧
    tr = t1 ++ t2 ∧ Runs (packEncrypted Toy.crypto World.msg World.bob (some World.alice) none { forward := false }) t1 (.ok (out', md')) ∧
    ThenForwarded Toy.crypto out' md' World.bob {} t2 (.ok (out, md)) ∧ md.messagingService ≠ md'.messagingService := by
  have h : World.test World.env (packEncrypted Toy.crypto World.msg World.bob (some World.alice) none {}) (fun x => decide (x.2.messagingService.isSome)) = true := by decide +kernel
  obtain ⟨tr, ⟨out, md⟩, h, -, hp⟩ := World.of_test h
  rcases (C104_by_hand World.msg World.bob (some World.alice) none {} rfl tr _).1 h with ⟨e, -, h⟩ | ⟨out', md', t1, t2, rfl, h1, h2⟩
  · cases h
  · refine ⟨_, out, md, t1, t2, out', md', h, rfl, h1, h2, ?_⟩
    have e : md'.messagingService = none := (C40_no_forward _ _ _ _ _ rfl _ _ _ h1).1
    rw [e]
    intro h
    rw [h] at hp
    cases hp

set_option maxRecDepth 100000 in
/-- A text is wrapped for the mediator, Bob and Alice. -/
example : ∃ tr out, Runs (wrapInForward Toy.crypto b!"{}" none b!"did:x:y" ([World.mediator, World.bob] ++ World.alice :: []) .xc20pEcdhEsA256kw) tr (.ok out) := by
  have h : World.test World.env (wrapInForward Toy.crypto b!"{}" none b!"did:x:y" ([World.mediator, World.bob] ++ World.alice :: []) .xc20pEcdhEsA256kw) (fun _ => true) = true := by decide +kernel
  obtain ⟨tr, out, h, -⟩ := World.of_test h
  exact ⟨tr, out, h⟩

end DIDComm
