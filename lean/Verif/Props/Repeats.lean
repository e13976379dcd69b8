import Verif.Props.Fresh
import Verif.Props.Authentic

/-!
# C105: what is packed twice

Encrypting the same message again gives a text that has nothing in common with the first; signing it again gives the same text.
-/

set_option autoImplicit false

namespace DIDComm

variable {C : Crypto}

theorem first_unique {c : UInt8} {a b a' b' : Str} (h : a ++ c :: b = a' ++ c :: b') (ha : c ∉ a) (ha' : c ∉ a') : a = a' ∧ b = b' := by
  induction a generalizing a' with
  | nil =>
    cases a' with
    | nil => simpa using h
    | cons x a' =>
      simp only [List.nil_append, List.cons_append, List.cons.injEq] at h
      exact absurd (h.1 ▸ List.mem_cons_self) ha'
  | cons y a ih =>
    cases a' with
    | nil =>
      simp only [List.nil_append, List.cons_append, List.cons.injEq] at h
      exact absurd (h.1 ▸ List.mem_cons_self) ha
    | cons x a' =>
      simp only [List.cons_append, List.cons.injEq] at h
      obtain ⟨rfl, rfl⟩ := ih h.2 (fun hm => ha (List.mem_cons_of_mem _ hm)) (fun hm => ha' (List.mem_cons_of_mem _ hm))
      exact ⟨by rw [h.1], rfl⟩

theorem last_unique {c : UInt8} {a b a' b' : Str} (h : a ++ c :: b = a' ++ c :: b') (hb : c ∉ b) (hb' : c ∉ b') : a = a' ∧ b = b' := by
  have h := congrArg List.reverse h
  simp only [List.reverse_append, List.reverse_cons, List.append_assoc, List.singleton_append] at h
  obtain ⟨h1, h2⟩ := first_unique h (by simpa using hb) (by simpa using hb')
  exact ⟨List.reverse_inj.1 h2, List.reverse_inj.1 h1⟩

theorem no_quote {s : Str} {b : Bytes} (h : B64.decode s = some b) : (∀ x ∈ s, escByte x = [x]) ∧ (0x22 : UInt8) ∉ s := by
  have key : ∀ x : UInt8, (B64.isSym x = true ∨ x = 61) → escByte x = [x] ∧ x ≠ 0x22 := by
    apply UInt8.forall_of_fin
    decide +kernel
  obtain ⟨pad, rfl, hp⟩ := B64.decode_some h
  have hs : ∀ x ∈ B64.encode b ++ pad, B64.isSym x = true ∨ x = 61 := by
    intro x hx
    rcases List.mem_append.1 hx with hx | hx
    · exact .inl (B64.encode_sym b x hx)
    · right
      rcases hp with rfl | rfl | rfl <;> simp at hx <;> exact hx
  exact ⟨fun x hx => (key x (hs x hx)).1, fun hx => (key _ (hs _ hx)).2 rfl⟩

theorem escStr_id {s : Str} (h : ∀ x ∈ s, escByte x = [x]) : escStr s = s := by
  induction s with
  | nil => rfl
  | cons a r ih =>
    simp only [escStr, h a (by simp), ih (fun x hx => h x (by simp [hx]))]
    rfl

/-- The end of an envelope's text. -/
theorem onWire_end (j : JWE) {iv ct tag : Bytes} (h1 : B64.decode j.iv = some iv) (h2 : B64.decode j.ciphertext = some ct)
    (h3 : B64.decode j.tag = some tag) :
    ∃ pre, j.onWire = ((pre ++ 0x22 :: j.iv) ++ 0x22 :: b!",") ++ 0x22 :: b!"ciphertext" ++ 0x22 :: b!":" ++ 0x22 :: j.ciphertext ++
      0x22 :: b!"," ++ 0x22 :: b!"tag" ++ 0x22 :: b!":" ++ 0x22 :: j.tag ++ 0x22 :: b!"}" := by
  refine ⟨b!"{" ++ quoteStr b!"protected" ++ b!":" ++ quoteStr j.protected_ ++ b!"," ++ quoteStr b!"recipients" ++ b!":" ++
    (Value.arr (j.recipients.map fun r =>
      .obj [(b!"header", .obj [(b!"kid", .str r.kid)]), (b!"encrypted_key", .str r.encryptedKey)])).print ++ b!"," ++ quoteStr b!"iv" ++ b!":", ?_⟩
  have e1 : escStr b!"ciphertext" = b!"ciphertext" := by decide
  have e2 : escStr b!"tag" = b!"tag" := by decide
  simp only [JWE.onWire, Value.print, Value.printMembers, quoteStr, escStr_id (no_quote h1).1, escStr_id (no_quote h2).1,
    escStr_id (no_quote h3).1, e1, e2]
  simp only [List.cons_append, List.append_assoc, List.nil_append]

/-- Envelopes with the same text have the same initialisation vector. -/
theorem onWire_iv {j j' : JWE} {iv iv' ct ct' tag tag' : Bytes} (h1 : B64.decode j.iv = some iv) (h2 : B64.decode j.ciphertext = some ct)
    (h3 : B64.decode j.tag = some tag) (h1' : B64.decode j'.iv = some iv') (h2' : B64.decode j'.ciphertext = some ct')
    (h3' : B64.decode j'.tag = some tag') (h : j.onWire = j'.onWire) : iv = iv' := by
  obtain ⟨pre, e⟩ := onWire_end j h1 h2 h3
  obtain ⟨pre', e'⟩ := onWire_end j' h1' h2' h3'
  rw [e, e'] at h
  have h := (last_unique h (by decide) (by decide)).1
  have h := (last_unique h (no_quote h3).2 (no_quote h3').2).1
  have h := (last_unique h (by decide) (by decide)).1
  have h := (last_unique h (by decide) (by decide)).1
  have h := (last_unique h (by decide) (by decide)).1
  have h := (last_unique h (no_quote h2).2 (no_quote h2').2).1
  have h := (last_unique h (by decide) (by decide)).1
  have h := (last_unique h (by decide) (by decide)).1
  have h := (last_unique h (by decide) (by decide)).1
  have h := (last_unique h (no_quote h1).2 (no_quote h1').2).2
  rw [h, h1'] at h1
  exact (Option.some.inj h1).symm

/-- Two envelopes with the same text have been made with the same nonce. -/
theorem Layer.Made.nonce {l l' : Layer} (h : l.Made C) (h' : l'.Made C) (ht : l.text = l'.text) :
    ∃ ce ce', C.genNonce ce l.nonce = C.genNonce ce' l'.nonce := by
  obtain ⟨j, s, hdr, ce, c, e, e1, -, ⟨_, _, _, -, -, -, d1, d2, d3, -⟩, -, -, -, -, e2⟩ := h
  obtain ⟨j', s', hdr', ce', c', e', e1', -, ⟨_, _, _, -, -, -, d1', d2', d3', -⟩, -, -, -, -, e2'⟩ := h'
  rw [e1, e1'] at ht
  have := onWire_iv d1 d2 d3 d1' d2' d3' ht
  rw [e2, e2'] at this
  exact ⟨_, _, this⟩

theorem layers_apart {ls ls' : List Layer} (h : ∀ l ∈ ls, l.Made C) (h' : ∀ l ∈ ls', l.Made C)
    (hn : ∀ n ∈ ls.flatMap Layer.uses, ∀ n' ∈ ls'.flatMap Layer.uses, ∀ ce ce', C.genNonce ce n ≠ C.genNonce ce' n') : ∀ l ∈ ls, ∀ l' ∈ ls', l.text ≠ l'.text := by
  intro l hl l' hl' ht
  obtain ⟨ce, ce', e⟩ := (h l hl).nonce (h' l' hl') ht
  exact hn l.nonce (List.mem_flatMap.2 ⟨l, hl, by simp [Layer.uses]⟩) l'.nonce (List.mem_flatMap.2 ⟨l', hl', by simp [Layer.uses]⟩) ce ce' e

theorem nest_last {t out : Str} {ls : List Layer} (h : Nest C t ls out) (hne : ls ≠ []) : ∃ l ∈ ls, l.text = out := by
  induction ls generalizing t with
  | nil => exact absurd rfl hne
  | cons a ls ih =>
    cases ls with
    | nil => exact ⟨a, by simp, h.2.symm⟩
    | cons b r =>
      obtain ⟨l, hl, e⟩ := ih h.2 (by simp)
      exact ⟨l, List.mem_cons_of_mem _ hl, e⟩

/-- C105: two packings whose random values give different nonces give different texts, and so do all envelopes inside: no text that a
mediator or a receiver of one of them sees is seen by anybody who handles the other.  This holds for the same message, sender and
receiver as for any others. -/
theorem C105_encrypted (m m' : Message) (to to' : Str) (from_ from' signBy signBy' : Option Str) (opts opts' : PackEncryptedOptions)
    (tr tr' : List Event) (out out' : Str) (md md' : PackEncryptedMetadata)
    (h : Runs (packEncrypted C m to from_ signBy opts) tr (.ok (out, md)))
    (h' : Runs (packEncrypted C m' to' from' signBy' opts') tr' (.ok (out', md')))
    (hn : ∀ n ∈ draws tr, ∀ n' ∈ draws tr', ∀ ce ce', C.genNonce ce n ≠ C.genNonce ce' n') :
    out ≠ out' ∧ ∃ inner inner', InnerText m signBy inner ∧ InnerText m' signBy' inner' ∧
      ∃ ls ls' : List Layer, Nest C inner ls out ∧ Nest C inner' ls' out' ∧ (∀ l ∈ ls, l.Made C) ∧ (∀ l ∈ ls', l.Made C) ∧
        ∀ l ∈ ls, ∀ l' ∈ ls', l.text ≠ l'.text := by
  obtain ⟨inner, i1, ls, g0, g1, g2, g3⟩ := C77_packed m to from_ signBy opts tr out md h
  obtain ⟨inner', i1', ls', g0', g1', g2', g3'⟩ := C77_packed m' to' from' signBy' opts' tr' out' md' h'
  rw [g2, g2'] at hn
  have hap := layers_apart g1 g1' hn
  refine ⟨?_, inner, inner', i1, i1', ls, ls', g3, g3', g1, g1', hap⟩
  obtain ⟨l, hl, e⟩ := nest_last g3 g0
  obtain ⟨l', hl', e'⟩ := nest_last g3' g0'
  rw [← e, ← e']
  exact hap l hl l' hl'

/-- C105: the envelopes of one packed message all differ, if its random values give different nonces. -/
theorem C105_within (m : Message) (to : Str) (from_ signBy : Option Str) (opts : PackEncryptedOptions)
    (tr : List Event) (out : Str) (md : PackEncryptedMetadata) (h : Runs (packEncrypted C m to from_ signBy opts) tr (.ok (out, md)))
    (hn : (draws tr).Pairwise (fun n n' => ∀ ce ce', C.genNonce ce n ≠ C.genNonce ce' n')) :
    ∃ inner, InnerText m signBy inner ∧ ∃ ls : List Layer, Nest C inner ls out ∧ (∀ l ∈ ls, l.Made C) ∧
      (ls.map Layer.text).Nodup := by
  obtain ⟨inner, i1, ls, g0, g1, g2, g3⟩ := C77_packed m to from_ signBy opts tr out md h
  refine ⟨inner, i1, ls, g3, g1, ?_⟩
  rw [g2] at hn
  clear g0 g2 g3 h
  induction ls with
  | nil => simp
  | cons a ls ih =>
    rw [List.flatMap_cons, List.pairwise_append] at hn
    rw [List.map_cons, List.nodup_cons]
    refine ⟨fun hm => ?_, ih hn.2.1 (fun l hl => g1 l (List.mem_cons_of_mem _ hl))⟩
    obtain ⟨l, hl, e⟩ := List.mem_map.1 hm
    obtain ⟨ce, ce', e⟩ := (g1 a List.mem_cons_self).nonce (g1 l (List.mem_cons_of_mem _ hl)) e.symm
    exact hn.2.2 a.nonce (by simp [Layer.uses]) l.nonce (List.mem_flatMap.2 ⟨l, hl, by simp [Layer.uses]⟩) ce ce' e

/-- C105: wrapping a text again, with random values that give other nonces, gives different texts for every mediator. -/
theorem C105_wrapped (msg msg' : Str) (headers headers' : Option (List (Str × Value))) (to to' : Str) (keys keys' : List Str)
    (alg alg' : AnonCryptAlg) (tr tr' : List Event) (out out' : Str)
    (h : Runs (wrapInForward C msg headers to keys alg) tr (.ok out)) (h' : Runs (wrapInForward C msg' headers' to' keys' alg') tr' (.ok out'))
    (hk : keys ≠ []) (hk' : keys' ≠ []) (hn : ∀ n ∈ draws tr, ∀ n' ∈ draws tr', ∀ ce ce', C.genNonce ce n ≠ C.genNonce ce' n') :
    out ≠ out' ∧ ∃ ls ls' : List Layer, ls.length = keys.length ∧ ls'.length = keys'.length ∧ Nest C msg ls out ∧ Nest C msg' ls' out' ∧
      (∀ l ∈ ls, l.Made C) ∧ (∀ l ∈ ls', l.Made C) ∧ ∀ l ∈ ls, ∀ l' ∈ ls', l.text ≠ l'.text := by
  obtain ⟨ls, g0, g1, g2, g3⟩ := C77_wrapped msg headers to keys alg tr out h
  obtain ⟨ls', g0', g1', g2', g3'⟩ := C77_wrapped msg' headers' to' keys' alg' tr' out' h'
  rw [g2, g2'] at hn
  have hap := layers_apart (fun l hl => (g1 l hl).1) (fun l hl => (g1' l hl).1) hn
  refine ⟨?_, ls, ls', g0, g0', g3, g3', fun l hl => (g1 l hl).1, fun l hl => (g1' l hl).1, hap⟩
  obtain ⟨l, hl, e⟩ := nest_last g3 (fun hx => hk (List.length_eq_zero_iff.1 (by rw [← g0, hx]; rfl)))
  obtain ⟨l', hl', e'⟩ := nest_last g3' (fun hx => hk' (List.length_eq_zero_iff.1 (by rw [← g0', hx]; rfl)))
  rw [← e, ← e']
  exact hap l hl l' hl'

/-- C105: signing the same message again gives the same text, as long as the resolvers answer the same. -/
theorem C105_signed (E : Env) (m : Message) (signBy : Str) (tr tr' : List Event) (out out' kid kid' : Str) (ha : Answers E tr)
    (ha' : Answers E tr') (h : Runs (packSigned C m signBy) tr (.ok (out, kid))) (h' : Runs (packSigned C m signBy) tr' (.ok (out', kid'))) :
    out = out' ∧ kid = kid' ∧ tr = tr' := by
  have d := (draws_inner (packInner_ok.2 (.inr ⟨signBy, kid, rfl, rfl, h⟩))).1
  have d' := (draws_inner (packInner_ok.2 (.inr ⟨signBy, kid', rfl, rfl, h'⟩))).1
  obtain ⟨e1, e2, -⟩ := runs_det (a := []) (b := []) h h' ha ha' (by rw [d, d'])
  cases e2
  exact ⟨rfl, rfl, e1⟩

/-- C105: so does packing the same `from_prior` again. -/
theorem C105_prior (E : Env) (f : FromPrior) (issuerKid : Option Str) (tr tr' : List Event) (jwt jwt' kid kid' : Str) (ha : Answers E tr)
    (ha' : Answers E tr') (h : Runs (f.pack C issuerKid) tr (.ok (jwt, kid))) (h' : Runs (f.pack C issuerKid) tr' (.ok (jwt', kid'))) :
    jwt = jwt' ∧ kid = kid' ∧ tr = tr' := by
  have d : ∀ {t j k}, Runs (f.pack C issuerKid) t (.ok (j, k)) → draws t = [] := by
    intro t j k h
    obtain ⟨doc, kids, found, secret, pair, alg, -, rfl, -⟩ := FromPrior.pack_ok.1 h
    rfl
  obtain ⟨e1, e2, -⟩ := runs_det (a := []) (b := []) h h' ha ha' (by rw [d h, d h'])
  cases e2
  exact ⟨rfl, rfl, e1⟩

theorem jws_onWire_payload {j j' : JWS} {b b' : Bytes} (h1 : B64.decode j.payload = some b) (h1' : B64.decode j'.payload = some b')
    (h : j.onWire = j'.onWire) : b = b' := by
  have key : ∀ {j : JWS} {b : Bytes}, B64.decode j.payload = some b → ∃ pre, j.onWire = (pre ++ 0x22 :: j.payload) ++ 0x22 :: b!"}" := by
    intro j b h1
    refine ⟨b!"{" ++ quoteStr b!"signatures" ++ b!":" ++ (Value.arr (j.signatures.map fun s =>
      .obj [(b!"header", .obj [(b!"kid", .str s.kid)]), (b!"protected", .str s.protected_), (b!"signature", .str s.signature)])).print ++
        b!"," ++ quoteStr b!"payload" ++ b!":", ?_⟩
    simp only [JWS.onWire, Value.print, Value.printMembers, quoteStr, escStr_id (no_quote h1).1]
    simp only [List.cons_append, List.append_assoc, List.nil_append]
  obtain ⟨pre, e⟩ := key h1
  obtain ⟨pre', e'⟩ := key h1'
  rw [e, e'] at h
  have h := (last_unique h (by decide) (by decide)).1
  have h := (last_unique h (no_quote h1).2 (no_quote h1').2).2
  rw [h, h1'] at h1
  exact (Option.some.inj h1).symm

/-- C105: different ordinary messages never give the same signed text, whoever signs them. -/
theorem C105_tells (m m' : Message) (signBy signBy' : Str) (tr tr' : List Event) (out kid kid' : Str) (hw : m.WF C.f64) (hw' : m'.WF C.f64)
    (h : Runs (packSigned C m signBy) tr (.ok (out, kid))) (h' : Runs (packSigned C m' signBy') tr' (.ok (out, kid'))) : m = m' := by
  obtain ⟨-, hdr, k, sig, e⟩ := draws_inner (packInner_ok.2 (.inr ⟨signBy, kid, rfl, rfl, h⟩))
  obtain ⟨-, hdr', k', sig', e'⟩ := draws_inner (packInner_ok.2 (.inr ⟨signBy', kid', rfl, rfl, h'⟩))
  have hp := jws_onWire_payload (B64.decode_encode _) (B64.decode_encode _) (e.symm.trans e')
  have h1 := message_print m hw
  rw [hp, message_print m' hw'] at h1
  exact (Except.ok.inj h1).symm

/-- The toy primitives with nonces that are as long as the draw says. -/
def World.longNonces : Crypto := { Toy.crypto with genNonce := fun _ n => List.replicate n 0 }

/-- Packing the same message for the same receiver twice, through two mediators, meets the hypotheses of `C105_encrypted` and
`C105_within`; so does wrapping twice for `C105_wrapped`. -/
example :
    (∃ tr tr' out out' md md', Runs (packEncrypted World.longNonces World.msg World.bob (some World.alice) none {}) tr (.ok (out, md)) ∧
      Runs (packEncrypted World.longNonces World.msg World.bob (some World.alice) none {}) tr' (.ok (out', md')) ∧
      (draws tr).Pairwise (fun n n' => ∀ ce ce', World.longNonces.genNonce ce n ≠ World.longNonces.genNonce ce' n') ∧
      ∀ n ∈ draws tr, ∀ n' ∈ draws tr', ∀ ce ce', World.longNonces.genNonce ce n ≠ World.longNonces.genNonce ce' n') ∧
    ∃ tr tr' out out', Runs (wrapInForward World.longNonces b!"{}" none World.bob [b!"did:example:mediator"] .a256cbcHs512EcdhEsA256kw) tr (.ok out) ∧
      Runs (wrapInForward World.longNonces b!"{}" none World.bob [b!"did:example:mediator"] .a256cbcHs512EcdhEsA256kw) tr' (.ok out') ∧
      draws tr ≠ [] ∧ ∀ n ∈ draws tr, ∀ n' ∈ draws tr', ∀ ce ce', World.longNonces.genNonce ce n ≠ World.longNonces.genNonce ce' n' := by
  have inj : ∀ {n n' : Nat}, n ≠ n' → ∀ ce ce', World.longNonces.genNonce ce n ≠ World.longNonces.genNonce ce' n' := by
    intro n n' hn _ _ h
    exact hn (by simpa [World.longNonces] using congrArg List.length h)
  refine ⟨?_, ?_⟩
  · have h : World.testFrom 0 (packEncrypted World.longNonces World.msg World.bob (some World.alice) none {})
      (fun tr _ => decide (draws tr = List.range 11)) = true := by decide +kernel
    have h' : World.testFrom 11 (packEncrypted World.longNonces World.msg World.bob (some World.alice) none {})
      (fun tr _ => decide (draws tr = (List.range 11).map (11 + ·))) = true := by decide +kernel
    obtain ⟨tr, ⟨out, md⟩, r, p⟩ := World.of_testFrom h
    obtain ⟨tr', ⟨out', md'⟩, r', p'⟩ := World.of_testFrom h'
    refine ⟨tr, tr', out, out', md, md', r, r', ?_⟩
    rw [of_decide_eq_true p, of_decide_eq_true p']
    have hp : (List.range 11).Pairwise (· ≠ ·) := by decide
    have hd : ∀ n ∈ List.range 11, ∀ n' ∈ (List.range 11).map (11 + ·), n ≠ n' := by decide
    exact ⟨hp.imp inj, fun n hn n' hn' => inj (hd n hn n' hn')⟩
  · have h : World.testFrom 0 (wrapInForward World.longNonces b!"{}" none World.bob [b!"did:example:mediator"] .a256cbcHs512EcdhEsA256kw)
      (fun tr _ => decide (draws tr = List.range 4)) = true := by decide +kernel
    have h' : World.testFrom 4 (wrapInForward World.longNonces b!"{}" none World.bob [b!"did:example:mediator"] .a256cbcHs512EcdhEsA256kw)
      (fun tr _ => decide (draws tr = (List.range 4).map (4 + ·))) = true := by decide +kernel
    obtain ⟨tr, out, r, p⟩ := World.of_testFrom h
    obtain ⟨tr', out', r', p'⟩ := World.of_testFrom h'
    refine ⟨tr, tr', out, out', r, r', ?_⟩
    rw [of_decide_eq_true p, of_decide_eq_true p']
    have hd : ∀ n ∈ List.range 4, ∀ n' ∈ (List.range 4).map (4 + ·), n ≠ n' := by decide
    exact ⟨by decide, fun n hn n' hn' => inj (hd n hn n' hn')⟩

/-- Alice can sign the same message and the same claims twice. -/
example : (∃ tr out kid, Answers World.env tr ∧ Runs (packSigned Toy.crypto World.msg World.alice) tr (.ok (out, kid))) ∧
    ∃ tr jwt kid, Answers World.env tr ∧ Runs (World.claims.pack Toy.crypto none) tr (.ok (jwt, kid)) := by
  constructor
  · have h : World.test World.env (packSigned Toy.crypto World.msg World.alice) (fun _ => true) = true := by decide +kernel
    obtain ⟨tr, ⟨out, kid⟩, r, a, -⟩ := World.of_test h
    exact ⟨tr, out, kid, a, r⟩
  · have h : World.test World.env (World.claims.pack Toy.crypto none) (fun _ => true) = true := by decide +kernel
    obtain ⟨tr, ⟨jwt, kid⟩, r, a, -⟩ := World.of_test h
    exact ⟨tr, jwt, kid, a, r⟩

end DIDComm
