import Verif.Props.Authentic
import Verif.Spec.Nesting

/-!
# C119: layers are removed in one order, and in no other
-/

set_option autoImplicit false

namespace DIDComm

variable {C : Crypto}

theorem Unwrapped.layers {opts : UnpackOptions} {msg out : Str} {md md' : UnpackMetadata} {tr : List Event} {l : List LayerKind} {m : Message}
    (h : Unwrapped C opts msg md tr out md') (hl : Layers C out l m) :
    ∃ n anon, Layers C msg ((List.replicate n [LayerKind.anon, LayerKind.forward]).flatten ++ ((if anon then [LayerKind.anon] else []) ++ l)) m ∧
      (0 < n → opts.unwrapReWrappingForward = true) ∧ md'.reWrappedInForward = (md.reWrappedInForward || decide (0 < n)) ∧
      md'.anonymousSender = (md.anonymousSender || (decide (0 < n) || anon)) ∧
      md'.encrypted = (md.encrypted || (decide (0 < n) || anon)) ∧ md'.encryptedFromKid = md.encryptedFromKid ∧
      md'.nonRepudiation = md.nonRepudiation ∧ md'.authenticated = md.authenticated := by
  induction h with
  | stop _ => exact ⟨0, false, by simpa using hl, by simp, by simp, by simp, by simp, rfl, rfl, rfl⟩
  | last h _ =>
    obtain ⟨kids, alg, kid, secret, key, h1, -, -, -, -, rfl⟩ := anon_layer h
    exact ⟨0, true, by simpa using Layers.anon h1 hl, by simp, by simp [UnpackMetadata.anon], by simp [UnpackMetadata.anon],
      by simp [UnpackMetadata.anon], rfl, rfl, rfl⟩
  | again h ho h2 _ ih =>
    obtain ⟨kids, alg, kid, secret, key, h1, -, -, -, -, rfl⟩ := anon_layer h
    obtain ⟨fm, next, v, f1, f2, rfl, -⟩ := forwarded_layer h2
    obtain ⟨n, anon, e1, e2, e3, e4, e5, e6, e7, e8⟩ := ih hl
    refine ⟨n + 1, anon, ?_, fun _ => ho, ?_, ?_, ?_, e6, e7, e8⟩
    · simpa [List.replicate_succ] using Layers.anon h1 (.forward f1 f2 e1)
    · rw [e3]; simp
    · rw [e4]; simp [UnpackMetadata.anon]
    · rw [e5]; simp [UnpackMetadata.anon]

/-- C119: a text that is accepted has the layers of the one order around its message, and the metadata tells which: forward messages
are removed only if that was asked for, and reported as re-wrapping; the sender is reported as anonymous exactly if there was an
anonymous envelope, named exactly if there was an envelope of a named sender, and non-repudiation exactly if there was a signature. -/
theorem C119_order (t : Str) (opts : UnpackOptions) (tr : List Event) (m : Message) (md : UnpackMetadata)
    (h : Runs (unpack C t opts) tr (.ok (m, md))) :
    ∃ n anon auth sign, Layers C t (inOrder n anon auth sign) m ∧ (0 < n → opts.unwrapReWrappingForward = true) ∧
      md.reWrappedInForward = decide (0 < n) ∧ md.anonymousSender = (decide (0 < n) || anon) ∧ md.encryptedFromKid.isSome = auth ∧
      md.nonRepudiation = sign ∧ md.encrypted = (decide (0 < n) || anon || auth) ∧ md.authenticated = (auth || sign) := by
  obtain ⟨t1, t2, t3, t4, msg1, md1, msg2, md2, msg3, md3, rfl, h1, h2, h3, h4, h5, h6⟩ := unpack_parts h
  have e0 : md.reWrappedInForward = md3.reWrappedInForward ∧ md.anonymousSender = md3.anonymousSender ∧
      md.encryptedFromKid = md3.encryptedFromKid ∧ md.nonRepudiation = md3.nonRepudiation ∧ md.encrypted = md3.encrypted ∧
      md.authenticated = md3.authenticated := by
    rcases h6 with ⟨-, -, rfl⟩ | ⟨_, _, _, _, _, _, -, -, -, -, -, rfl⟩ <;> exact ⟨rfl, rfl, rfl, rfl, rfl, rfl⟩
  obtain ⟨a1, a2, a3, a4, a5, a6⟩ := e0
  have l3 : Layers C msg3 [] m := .message h4 h5
  have l2 : ∃ sign, Layers C msg2 (if sign then [.sign] else []) m ∧ md3.reWrappedInForward = md2.reWrappedInForward ∧
      md3.anonymousSender = md2.anonymousSender ∧ md3.encryptedFromKid = md2.encryptedFromKid ∧
      md3.nonRepudiation = (md2.nonRepudiation || sign) ∧ md3.encrypted = md2.encrypted ∧
      md3.authenticated = (md2.authenticated || sign) := by
    rcases h3 with ⟨rfl, rfl, -⟩ | ⟨_, _, _, _, _, hs, -, -, -, rfl⟩
    · exact ⟨false, l3, rfl, rfl, rfl, by simp, rfl, by simp⟩
    · exact ⟨true, .sign hs l3, rfl, rfl, rfl, by simp [UnpackMetadata.sign], rfl, by simp [UnpackMetadata.sign]⟩
  obtain ⟨sign, l2, b1, b2, b3, b4, b5, b6⟩ := l2
  have l1 : ∃ auth, Layers C msg1 ((if auth then [.auth] else []) ++ if sign then [.sign] else []) m ∧
      md2.reWrappedInForward = md1.reWrappedInForward ∧ md2.anonymousSender = md1.anonymousSender ∧
      md2.encryptedFromKid.isSome = (md1.encryptedFromKid.isSome || auth) ∧ md2.nonRepudiation = md1.nonRepudiation ∧
      md2.encrypted = (md1.encrypted || auth) ∧ md2.authenticated = (md1.authenticated || auth) := by
    rcases h2 with ⟨rfl, rfl, -⟩ | ⟨_, _, _, _, _, _, _, _, hs, -, -, -, -, -, -, rfl⟩
    · exact ⟨false, by simpa using l2, rfl, rfl, by simp, rfl, by simp, by simp⟩
    · exact ⟨true, .auth hs.1 l2, rfl, rfl, by simp [UnpackMetadata.auth], rfl, by simp [UnpackMetadata.auth],
        by simp [UnpackMetadata.auth]⟩
  obtain ⟨auth, l1, c1, c2, c3, c4, c5, c6⟩ := l1
  obtain ⟨n, anon, l0, d1, d2, d3, d4, d5, d6, d7⟩ := h1.layers l1
  refine ⟨n, anon, auth, sign, l0, d1, ?_, ?_, ?_, ?_, ?_, ?_⟩
  · rw [a1, b1, c1, d2]; rfl
  · rw [a2, b2, c2, d3]; rfl
  · rw [a3, b3, c3, d5]; rfl
  · rw [a4, b4, c4, d6]; rfl
  · rw [a5, b5, c5, d4]; rfl
  · rw [a6, b6, c6, d7]; rfl

/-- C119: a text that has its layers in no such way is refused, whatever the resolvers answer. -/
theorem C119_other_orders (t : Str) (opts : UnpackOptions) (tr : List Event) (r : Res (Message × UnpackMetadata))
    (hn : ∀ n anon auth sign m, ¬ Layers C t (inOrder n anon auth sign) m) (h : Runs (unpack C t opts) tr r) : ∃ e, r = .error e := by
  cases r with
  | error e => exact ⟨e, rfl⟩
  | ok x =>
    obtain ⟨n, anon, auth, sign, hl, -⟩ := C119_order t opts tr x.1 x.2 h
    exact absurd hl (hn n anon auth sign x.1)

theorem afterAuth_reads {t : Str} {md : UnpackMetadata} {tr : List Event} {x : Message × UnpackMetadata}
    (h : Runs (afterAuth C t md) tr (.ok x)) :
    (fromJson dJws t = .error (.kind .malformed) ∧ MessageText C t) ∨
      ∃ kid alg c key u, SignedBy C t kid alg c key u ∧ MessageText C u := by
  rw [afterAuth_eq] at h
  simp only [runs_bind_ok, Prod.exists, afterSign] at h
  obtain ⟨signed, md2, t2, t3, rfl, h1, m, md3, t4, t5, rfl, h2, h3⟩ := h
  have hm : MessageText C (signed.getD t) := by
    rcases tryUnpackPlaintext_ok.1 h2 with ⟨rfl, -⟩ | ⟨m', -, e1, -⟩
    · obtain ⟨_, _, _, -, h, -⟩ := h3
      simp [okOr] at h
    · exact ⟨m', e1⟩
  cases signed with
  | none =>
    rcases tryUnpackSign_ok.1 h1 with ⟨-, -, -, e⟩ | ⟨_, _, _, _, _, _, _, _, e, -⟩
    · exact .inl ⟨e, hm⟩
    · cases e
  | some u =>
    obtain ⟨kid, alg, doc, c, key, e, -⟩ := sign_layer h1
    exact .inr ⟨kid, alg, c, key, u, e, hm⟩

/-- C119: so a signature is the innermost layer: a signed text whose payload is not a plaintext message is refused. -/
theorem C119_signature_innermost (t : Str) (opts : UnpackOptions) (tr : List Event) (r : Res (Message × UnpackMetadata)) (j : JWS)
    (ht : fromJson dJws t = .ok j) (he : fromJson dJwe t = .error (.kind .malformed))
    (hm : ∀ u, B64.decode j.payload = some u → ¬ MessageText C u) (h : Runs (unpack C t opts) tr r) : ∃ e, r = .error e := by
  cases r with
  | error e => exact ⟨e, rfl⟩
  | ok x =>
    exfalso
    rw [unpack_not_jwe he] at h
    rcases afterAuth_reads h with ⟨h1, -⟩ | ⟨kid, alg, c, key, u, ⟨prot, sig, pl, b, hdr, st, raw, h1, -, -, -, -, -, h2, -⟩, h3⟩
    · rw [ht] at h1; cases h1
    · rw [ht] at h1; cases h1
      exact hm u h2 h3

/-- C119: in particular an envelope that was signed is refused, be it encrypted or itself signed. -/
theorem C119_signed_envelope (opts : UnpackOptions) (tr : List Event) (r : Res (Message × UnpackMetadata)) (s : List JwsSig) (u : Str)
    (hu : WrittenEnvelope u) (h : Runs (unpack C (JWS.onWire ⟨s, B64.encode u⟩) opts) tr r) : ∃ e, r = .error e := by
  cases r with
  | error e => exact ⟨e, rfl⟩
  | ok x =>
    exfalso
    rw [JWS.onWire_eq, unpack_not_jwe (jws_not_jwe _)] at h
    rcases afterAuth_reads h with ⟨-, m, h1⟩ | ⟨kid, alg, c, key, w, ⟨prot, sig, pl, b, hdr, st, raw, h1, -, -, -, -, -, h2, -⟩, m, h3⟩
    · rw [jws_not_message] at h1; cases h1
    · have hp := jws_payload (B64.plain_encode u) h1
      dsimp only at hp
      rw [hp, B64.decode_encode] at h2
      cases h2
      rcases hu with ⟨j, rfl⟩ | ⟨j, rfl⟩
      · rw [JWE.onWire_eq, jwe_not_message] at h3; cases h3
      · rw [JWS.onWire_eq, jws_not_message] at h3; cases h3

/-- C119: inside an envelope of a named sender there is nothing but a message, signed or not: one that opens to another encrypted
envelope is not accepted. -/
theorem C119_inside_auth (t : Str) (opts : UnpackOptions) (tr : List Event) (x : Message × UnpackMetadata)
    (ht : EncryptedBy C t .ecdh1pu) (h : Runs (unpack C t opts) tr (.ok x)) :
    ∃ kids fromKid c skey kid rkey u, AuthOpens C t kids fromKid c skey kid rkey u ∧ (SignedText u ∨ MessageText C u) := by
  obtain ⟨j, b, hdr, hj, hb, hh, ha⟩ := ht
  obtain ⟨p, hp⟩ := unpack_parses h hj
  obtain ⟨rfl, hr⟩ := jwe_parse_ok hj hp
  obtain ⟨b', hb', hh'⟩ := hr.header
  rw [hb] at hb'; cases hb'
  rw [hh] at hh'; cases hh'
  obtain ⟨payload, md2, t2, t3, rfl, h1, h2⟩ := outer_auth h hj hp ha
  obtain ⟨kids, fromKid, doc, c, skey, kid, secret, rkey, e1, -⟩ := auth_layer h1
  refine ⟨kids, fromKid, c, skey, kid, rkey, payload, e1, ?_⟩
  rcases afterAuth_reads h2 with ⟨-, h3⟩ | ⟨_, _, _, _, _, ⟨_, _, _, _, _, _, _, h3, -⟩, -⟩
  · exact .inr h3
  · exact .inl ⟨_, h3⟩

/-- C119: inside an anonymous envelope there is an envelope of a named sender or a message, signed or not: one that opens to
another anonymous envelope is not accepted. -/
theorem C119_inside_anon (t : Str) (opts : UnpackOptions) (tr : List Event) (x : Message × UnpackMetadata)
    (ht : EncryptedBy C t .ecdhEs) (h : Runs (unpack C t opts) tr (.ok x)) :
    ∃ kids alg c kid rkey u, AnonOpens C t kids alg c kid rkey u ∧ (EncryptedBy C u .ecdh1pu ∨ SignedText u ∨ MessageText C u) := by
  obtain ⟨j, b, hdr, hj, hb, hh, ha⟩ := ht
  obtain ⟨p, hp⟩ := unpack_parses h hj
  obtain ⟨rfl, hr⟩ := jwe_parse_ok hj hp
  obtain ⟨b', hb', hh'⟩ := hr.header
  rw [hb] at hb'; cases hb'
  rw [hh] at hh'; cases hh'
  obtain ⟨t1, t2, t3, t4, msg1, md1, msg2, md2, msg3, md3, rfl, h1, h2, h3, h4, -⟩ := unpack_parts h
  cases h1 with
  | stop h1 =>
    rcases tryUnpackAnoncrypt_ok.1 h1 with ⟨-, -, -, e | ⟨j', p', e1, e2, e⟩⟩ | ⟨_, _, _, _, _, _, e, -⟩
    · rw [show jweFromStr t = _ from hj] at e; cases e
    · rw [show jweFromStr t = _ from hj] at e1; cases e1
      rw [hp] at e2; cases e2
      exact absurd ha e
    · cases e
  | last h1 _ =>
    obtain ⟨kids, alg, kid, secret, key, e1, -⟩ := anon_layer h1
    refine ⟨_, _, _, _, _, _, e1, ?_⟩
    rcases h2 with ⟨rfl, -⟩ | ⟨_, _, _, _, _, _, _, _, ⟨⟨_, _, _, _, _, _, hr', ha', -⟩, -⟩, -⟩
    · rcases h3 with ⟨rfl, -⟩ | ⟨_, _, _, _, _, ⟨_, _, _, _, _, _, _, h3, -⟩, -⟩
      · exact .inr (.inr ⟨_, h4⟩)
      · exact .inr (.inl ⟨_, h3⟩)
    · obtain ⟨b, hb, hh⟩ := hr'.header
      exact .inl ⟨_, b, _, hr'.text, hb, hh, ha'⟩
  | again h1 _ hf _ =>
    obtain ⟨kids, alg, kid, secret, key, e1, -⟩ := anon_layer h1
    obtain ⟨fm, next, v, f1, -⟩ := forwarded_layer hf
    exact ⟨_, _, _, _, _, _, e1, .inr (.inr ⟨_, f1⟩)⟩

/-! ## Examples -/

/-- A signed envelope has its layers in no such order. -/
example (s : List JwsSig) (j : JWE) (n : Nat) (anon auth sign : Bool) (m : Message) :
    ¬ Layers C (JWS.onWire ⟨s, B64.encode j.onWire⟩) (inOrder n anon auth sign) m := by
  intro h
  rw [JWS.onWire_eq] at h
  have enc : ∀ w, fromJson dJwe (JWS.toJson ⟨s, B64.encode j.onWire⟩).print ≠ .ok w := fun w hw => by
    have := jws_not_jwe ⟨s, B64.encode j.onWire⟩
    rw [show jweFromStr _ = _ from hw] at this
    cases this
  have hanon : ∀ l, ¬ Layers C (JWS.toJson ⟨s, B64.encode j.onWire⟩).print (.anon :: l) m := by
    intro l h
    cases h with | anon h _ =>
    obtain ⟨w, _, _, _, _, _, _, h, -⟩ := h
    exact enc w h.text
  have hauth : ∀ l, ¬ Layers C (JWS.toJson ⟨s, B64.encode j.onWire⟩).print (.auth :: l) m := by
    intro l h
    cases h with | auth h _ =>
    obtain ⟨w, _, _, _, _, _, h, -⟩ := h
    exact enc w h.text
  cases n with
  | succ n => exact hanon _ (by simpa [inOrder, List.replicate_succ] using h)
  | zero =>
    cases anon with
    | true => exact hanon _ h
    | false =>
      cases auth with
      | true => exact hauth _ h
      | false =>
        cases sign with
        | false =>
          cases h with | message h _ =>
          rw [jws_not_message] at h; cases h
        | true =>
          cases h with | sign h hi =>
          obtain ⟨_, _, _, _, _, _, _, h, -, -, -, -, -, h', -⟩ := h
          have hp := jws_payload (B64.plain_encode _) h
          dsimp only at hp
          rw [hp, B64.decode_encode] at h'
          cases h'
          cases hi with | message h _ =>
          rw [JWE.onWire_eq, jwe_not_message] at h; cases h

/-- Does the text say that it is an encrypted envelope with this way of agreeing on keys? -/
def World.saysAlg (t : Str) (alg : JweAlg) : Bool :=
  match fromJson dJwe t with
  | .ok j =>
    match B64.decode j.protected_ with
    | some b =>
      match fromJson (dJweHeader Toy.crypto.f64) b with
      | .ok hdr => decide (hdr.alg = alg)
      | .error _ => false
    | none => false
  | .error _ => false

theorem World.of_saysAlg {t : Str} {alg : JweAlg} (h : World.saysAlg t alg = true) : EncryptedBy Toy.crypto t alg := by
  unfold World.saysAlg at h
  split at h
  · split at h
    · split at h
      · exact ⟨_, _, _, by assumption, by assumption, by assumption, of_decide_eq_true h⟩
      · cases h
    · cases h
  · cases h

/-- Alice's message to Bob, in an envelope of hers, in an envelope of hers around an anonymous one, and so on: the inner text is made
by the first program, the outer one from it by the second. -/
def World.nested (inner : Prog Str) (outer : Str → Prog Str) : Prog (Message × UnpackMetadata) := do
  let u ← inner
  let t ← outer u
  unpack Toy.crypto t {}

/-- The message itself, or the message in an anonymous envelope, or in one of Alice's. -/
def World.anonText (u : Str) : Prog Str := do
  let x ← anoncrypt Toy.crypto World.bob u .xc20pEcdhEsA256kw
  pure x.1

def World.authText (u : Str) : Prog Str := do
  let x ← authcrypt Toy.crypto World.bob World.alice u .a256cbcHs512Ecdh1puA256kw .xc20pEcdhEsA256kw false
  pure x.1

/-- Any text with Alice's signature. -/
def World.signText (u : Str) : Prog Str := do
  let secret ← getSecret b!"did:example:alice#ed"
  let secret ← Prog.lift (okOr .secretNotFound secret)
  let pair ← Prog.lift (secret.asKeyPair Toy.crypto)
  Prog.lift (jwsSign Toy.crypto u b!"did:example:alice#ed" pair.curve pair.key .edDSA)

/-- A message with all three layers. -/
example : ∃ t m, Layers Toy.crypto t [.anon, .auth, .sign] m := by
  have h : World.test World.env (World.nested (packPlaintext Toy.crypto World.msg >>= World.signText >>= World.authText) World.anonText)
      (fun x => !x.2.reWrappedInForward && x.2.anonymousSender && x.2.encryptedFromKid.isSome && x.2.nonRepudiation) = true := by
    decide +kernel
  obtain ⟨tr, ⟨m, md⟩, h, -, hz⟩ := World.of_test h
  simp only [World.nested, runs_bind_ok] at h
  obtain ⟨u, t1, t2, rfl, -, t, t3, t4, rfl, -, h⟩ := h
  obtain ⟨n, anon, auth, sign, hl, e1, e2, e3, e4, e5, e6, e7⟩ := C119_order t {} t4 m md h
  simp only [Bool.and_eq_true, Bool.not_eq_true'] at hz
  obtain ⟨⟨⟨z1, z2⟩, z3⟩, z4⟩ := hz
  rw [z1] at e2
  rw [← e2, z2] at e3
  obtain rfl : n = 0 := by
    rcases Nat.eq_zero_or_pos n with h | h
    · exact h
    · simp [h] at e2
  have e3 : anon = true := by simpa using e3.symm
  rw [z3] at e4
  rw [z4] at e5
  subst e3 e4 e5
  exact ⟨t, m, hl⟩

/-- Every envelope by itself is accepted, and each of the pairs in the right order. -/
example : (∀ f ∈ [World.anonText, World.authText, World.signText], World.test World.env
      (World.nested (packPlaintext Toy.crypto World.msg) f) (fun x => decide (x.1.toJson.print = World.msg.toJson.print)) = true) ∧
    (∀ p ∈ [(World.authText, World.anonText), (World.signText, World.anonText), (World.signText, World.authText)], World.test World.env
      (World.nested (packPlaintext Toy.crypto World.msg >>= p.1) p.2) (fun x => decide (x.1.toJson.print = World.msg.toJson.print)) = true) := by
  decide +kernel

/-- Each of the pairs in another order is refused. -/
example : ∀ p ∈ [(World.anonText, World.anonText), (World.authText, World.authText), (World.signText, World.signText),
      (World.anonText, World.authText), (World.anonText, World.signText), (World.authText, World.signText)],
    World.testError World.env (World.nested (packPlaintext Toy.crypto World.msg >>= p.1) p.2) (.kind .malformed) = true := by
  decide +kernel

/-- There are accepted envelopes of both kinds. -/
example : (∃ t tr x, EncryptedBy Toy.crypto t .ecdh1pu ∧ Runs (unpack Toy.crypto t {}) tr (.ok x)) ∧
    ∃ t tr x, EncryptedBy Toy.crypto t .ecdhEs ∧ Runs (unpack Toy.crypto t {}) tr (.ok x) := by
  have key : ∀ (f : Str → Prog Str) (alg : JweAlg), World.test World.env (do
      let u ← packPlaintext Toy.crypto World.msg
      let t ← f u
      let x ← unpack Toy.crypto t {}
      pure (t, x)) (fun z => World.saysAlg z.1 alg) = true →
      ∃ t tr x, EncryptedBy Toy.crypto t alg ∧ Runs (unpack Toy.crypto t {}) tr (.ok x) := by
    intro f alg h
    obtain ⟨tr, z, h, -, hz⟩ := World.of_test h
    simp only [runs_bind_ok] at h
    obtain ⟨u, t1, t2, rfl, -, t, t3, t4, rfl, -, x, t5, t6, rfl, h1, h2⟩ := h
    obtain ⟨rfl, h2⟩ := runs_pure.1 h2
    cases h2
    exact ⟨t, t5, x, World.of_saysAlg hz, h1⟩
  exact ⟨key World.authText _ (by decide +kernel), key World.anonText _ (by decide +kernel)⟩

end DIDComm
