import Verif.Proofs.Size
import Verif.Spec.World
import Verif.Props.Secrecy
import Verif.Props.Outcome

/-!
# C102: what the size of a packed message tells
-/

set_option autoImplicit false

namespace DIDComm

variable {C : Crypto} {E : Env}

theorem cipherOf_eq (a : AnonCryptAlg) : a.ce = cipherOf a := by cases a <;> rfl

/-- C102: with given resolvers, recipient, sender, signer and options, the length of what `pack_encrypted` returns, forwarding included, is a
function of the length of the plaintext JSON of the message, whatever is drawn at random.  If the ciphers used let the length of the
ciphertext grow with that of the content, then the function grows too. -/
theorem C102_encrypted (S : Sizes C) (ht : TextEnv E) (to : Str) (from_ signBy : Option Str) (opts : PackEncryptedOptions) :
    ∃ f : Nat → Nat,
      (∀ s, Grows s (S.content (cipherOf opts.encAlgAnon)) → (from_ ≠ none → Grows s (S.content .a256cbcHs512)) → Grows s f) ∧
      ∀ m tr out md, Runs (packEncrypted C m to from_ signBy opts) tr (.ok (out, md)) → Answers E tr →
        out.length = f m.toJson.print.length := by
  obtain ⟨f, hf, h1⟩ := inner_sized (E := E) S signBy
  obtain ⟨g, hg, h2⟩ := crypt_sized S ht to from_ opts
  obtain ⟨h, hh, h3⟩ := wrapIfNeeded_sized S ht to opts
  refine ⟨fun n => h (g (f n)), fun s a b => ?_, fun m tr out md hr ha => ?_⟩
  · rw [← cipherOf_eq] at a
    exact (hh s fun ce e => e ▸ a).comp ((hg s fun ce e => by
      rcases e with rfl | ⟨e, rfl⟩
      · exact a
      · exact b e).comp (hf s))
  · obtain ⟨t1, t2, t3, inner, sk, env, fk, tk, w, rfl, -, r1, r2, r3, r4⟩ := packEncrypted_ok.1 hr
    simp only [answers_append] at ha
    obtain ⟨e2, hst⟩ := h2 _ _ _ _ _ r2 ha.1.2
    have e3 := h3 _ _ _ hst r3 ha.2
    rw [e2, h1 _ _ _ _ r1 ha.1.1] at e3
    rcases r4 with ⟨rfl, rfl, -⟩ | ⟨svc, rfl, -⟩
    · exact e3
    · exact e3

/-- C102: messages of the same length give packed messages of the same length: the size tells nothing but the length. -/
theorem C102_same (S : Sizes C) (ht : TextEnv E) (to : Str) (from_ signBy : Option Str) (opts : PackEncryptedOptions) (m m' : Message)
    (tr tr' : List Event) (out out' : Str) (md md' : PackEncryptedMetadata)
    (h : Runs (packEncrypted C m to from_ signBy opts) tr (.ok (out, md))) (h' : Runs (packEncrypted C m' to from_ signBy opts) tr' (.ok (out', md')))
    (ha : Answers E tr) (ha' : Answers E tr') (hl : m.toJson.print.length = m'.toJson.print.length) : out.length = out'.length := by
  obtain ⟨f, -, hf⟩ := C102_encrypted S ht to from_ signBy opts
  rw [hf _ _ _ _ h ha, hf _ _ _ _ h' ha', hl]

/-- C102: and it does tell the length.  Nothing is padded but by the block ciphers: if an increase of the content by `s` makes a ciphertext
longer by `s` (16 for A256CBC-HS512, 1 for the others), packed messages of the same size come from messages whose lengths differ by
less than `s`. -/
theorem C102_told (S : Sizes C) (ht : TextEnv E) (to : Str) (from_ signBy : Option Str) (opts : PackEncryptedOptions) (s : Nat) (hs : 0 < s)
    (h1 : Grows s (S.content (cipherOf opts.encAlgAnon))) (h2 : from_ ≠ none → Grows s (S.content .a256cbcHs512)) (m m' : Message)
    (tr tr' : List Event) (out out' : Str) (md md' : PackEncryptedMetadata)
    (h : Runs (packEncrypted C m to from_ signBy opts) tr (.ok (out, md))) (h' : Runs (packEncrypted C m' to from_ signBy opts) tr' (.ok (out', md')))
    (ha : Answers E tr) (ha' : Answers E tr') (hl : out.length = out'.length) :
    m.toJson.print.length < m'.toJson.print.length + s ∧ m'.toJson.print.length < m.toJson.print.length + s := by
  obtain ⟨f, hg, hf⟩ := C102_encrypted S ht to from_ signBy opts
  have hg := hg s h1 h2
  rw [hf _ _ _ _ h ha, hf _ _ _ _ h' ha'] at hl
  refine ⟨Nat.lt_of_not_le fun hle => ?_, Nat.lt_of_not_le fun hle => ?_⟩
  · have a := hg.more m'.toJson.print.length
    have b := hg.mono hle
    omega
  · have a := hg.more m.toJson.print.length
    have b := hg.mono hle
    omega

/-- C102: the same for signed messages, where there is no cipher: equal sizes mean equal lengths. -/
theorem C102_signed (S : Sizes C) (signBy : Str) :
    ∃ f : Nat → Nat, (∀ s, Grows s f) ∧
      ∀ m tr out kid, Runs (packSigned C m signBy) tr (.ok (out, kid)) → Answers E tr → out.length = f m.toJson.print.length := by
  obtain ⟨k, hk⟩ := signed_sized (E := E) S signBy
  exact ⟨fun n => k + b64Len n, fun s => (b64Len_grows s).add k, hk⟩

/-- C102: the same for `wrap_in_forward`: the size of the result depends on the length of the forwarded JSON, printed compactly. -/
theorem C102_wrapped (S : Sizes C) (ht : TextEnv E) (headers : Option (List (Str × Value))) (to : Str) (keys : List Str) (alg : AnonCryptAlg) :
    ∃ f : Nat → Nat, (∀ s, Grows s (S.content (cipherOf alg)) → Grows s f) ∧
      ∀ msg v tr out, fromJson (toValue C.f64) msg = .ok v → Runs (wrapInForward C msg headers to keys alg) tr (.ok out) → Answers E tr →
        out.length = f v.print.length := by
  obtain ⟨f, hf, hr⟩ := wrap_sized S ht headers to keys alg
  exact ⟨f, fun s h => hf s fun ce e => by rw [e, cipherOf_eq]; exact h, hr⟩

/-! ## The hypotheses are met -/

/-- Toy primitives whose results have the lengths real ones have in principle: keys, tags and signatures are fixed, a block cipher fills the
last block, the others keep the length. -/
def Toy.sized : Crypto :=
  { Toy.crypto with
    genKey := fun c n => some [Toy.curveByte c, n.toUInt8],
    genCek := fun ce n => some [Toy.ceByte ce, n.toUInt8],
    genNonce := fun ce n => [Toy.ceByte ce, n.toUInt8],
    sign := fun c k m t => some [Toy.curveByte c, Toy.sigByte t, k.length.toUInt8, m.length.toUInt8],
    wrap := fun kw cek => some (kw.length.toUInt8 :: cek),
    aeadEnc := fun ce _ _ aad pt =>
      some (match ce with
        | .a256cbcHs512 => pt ++ List.replicate (16 - pt.length % 16) (16 - pt.length % 16).toUInt8
        | _ => pt, [Toy.ceByte ce, aad.length.toUInt8]),
    uuid := fun n => [0x61 + (n % 16).toUInt8] }

/-- Its lengths. -/
def Toy.sizes : Sizes Toy.sized where
  cek := fun _ => 2
  genCek := fun h => by cases h; rfl
  nonce := fun _ => 2
  genNonce := fun _ _ => rfl
  content := fun ce n => match ce with | .a256cbcHs512 => n + (16 - n % 16) | _ => n
  tag := fun _ => 2
  aeadEnc := fun {ce} _ _ _ _ _ _ h => by
    cases ce <;> cases h
    · exact ⟨by simp, rfl⟩
    · exact ⟨rfl, rfl⟩
    · exact ⟨rfl, rfl⟩
  wrapped := fun n => n + 1
  wrap := fun h => by cases h; rfl
  epk := fun _ => 21
  toJwk := fun {c n k v} h1 h2 => by
    cases h1
    cases h2
    have h : (quoteStr (B64.encode [Toy.curveByte c, n.toUInt8])).length = 5 := by
      rw [(B64.plain_encode _).quoted, B64.length_encode]
      simp [b64Len]
    have h' : (quoteStr [64 + Toy.curveByte c]).length = 3 := by cases c <;> rfl
    have a : (quoteStr b!"crv").length = 5 := rfl
    have b : (quoteStr b!"x").length = 3 := rfl
    simp only [Value.print, Value.printMembers, List.length_cons, List.length_append, List.length_nil, h, h', a, b]
  signature := fun _ => 4
  sign := fun h => by cases h; rfl
  id := 1
  uuid := fun n => ⟨rfl, plain_of_ascii (by
    intro b hb
    have hm : ∀ k : Nat, k < 16 → (0x61 + k.toUInt8 : UInt8) < 0x80 ∧ (0x61 + k.toUInt8 : UInt8) ≠ 0x22 ∧ (0x61 + k.toUInt8 : UInt8) ≠ 0x5C ∧
        (0x20 : UInt8) ≤ 0x61 + k.toUInt8 := by decide
    simp only [Toy.sized, List.mem_singleton] at hb
    rw [hb]
    exact hm _ (Nat.mod_lt _ (by decide)))⟩

theorem Toy.sizes_block (ce : ContentEnc) : Grows 16 (Toy.sizes.content ce) := by
  cases ce
  · exact ⟨fun {a b} h => by simp only [Toy.sizes]; omega, fun n => by simp only [Toy.sizes]; omega⟩
  · exact Grows.id 16
  · exact Grows.id 16

/-- C102_encrypted, C102_same and C102_told: Alice sends two messages to Bob, signed, with authenticated encryption and sender protection,
through the mediator.  They have different contents of the same length. -/
example : ∃ m m' : Message, ∃ tr tr' out out' md md',
    Runs (packEncrypted Toy.sized m World.bob (some World.alice) (some World.alice) { protectSender := true }) tr (.ok (out, md)) ∧
    Runs (packEncrypted Toy.sized m' World.bob (some World.alice) (some World.alice) { protectSender := true }) tr' (.ok (out', md')) ∧
    Answers World.env tr ∧ Answers World.env tr' ∧ m.toJson.print.length = m'.toJson.print.length ∧ m.toJson.print ≠ m'.toJson.print ∧
    out ≠ out' ∧ out.length = out'.length ∧ md.messagingService.isSome := by
  have h : World.testRun World.env (packEncrypted Toy.sized World.msg World.bob (some World.alice) (some World.alice) { protectSender := true })
      (fun _ x => World.testRun World.env
        (packEncrypted Toy.sized { World.msg with id := b!"6" ++ World.msg.id.drop 1 } World.bob (some World.alice) (some World.alice) { protectSender := true })
        (fun _ y => decide (x.1 ≠ y.1) && x.2.messagingService.isSome)) = true := by decide +kernel
  obtain ⟨tr, ⟨out, md⟩, r1, a1, h⟩ := World.of_run h
  obtain ⟨tr', ⟨out', md'⟩, r2, a2, h⟩ := World.of_run h
  simp only [Bool.and_eq_true, decide_eq_true_eq] at h
  have hl : World.msg.toJson.print.length = (Message.toJson { World.msg with id := b!"6" ++ World.msg.id.drop 1 }).print.length := by decide +kernel
  exact ⟨_, _, tr, tr', out, out', md, md', r1, r2, a1, a2, hl, by decide +kernel, h.1,
    C102_same Toy.sizes textEnv_world _ _ _ _ _ _ _ _ _ _ _ _ r1 r2 a1 a2 hl, h.2⟩

/-- C102_told: without authentication and with XC20P equal sizes mean equal lengths; with authentication the lengths may differ by up to 15. -/
example : Grows 1 (Toy.sizes.content (cipherOf ({} : PackEncryptedOptions).encAlgAnon)) ∧ ¬ Grows 1 (Toy.sizes.content .a256cbcHs512) ∧
    ∀ ce, Grows 16 (Toy.sizes.content ce) :=
  ⟨Grows.id 1, fun h => absurd (h.more 0) (by decide), Toy.sizes_block⟩

/-- C102_signed: signed messages. -/
example : ∃ tr out kid, Runs (packSigned Toy.sized World.msg World.alice) tr (.ok (out, kid)) ∧ Answers World.env tr := by
  have h : World.testRun World.env (packSigned Toy.sized World.msg World.alice) (fun _ _ => true) = true := by decide +kernel
  obtain ⟨tr, ⟨out, kid⟩, r, a, -⟩ := World.of_run h
  exact ⟨tr, out, kid, r, a⟩

/-- C102_wrapped: a JSON text for two mediators. -/
example : ∃ v tr out, fromJson (toValue Toy.sized.f64) b!"{ \"a\" : [1] }" = .ok v ∧
    Runs (wrapInForward Toy.sized b!"{ \"a\" : [1] }" none World.bob [World.mediator, World.mediator] .xc20pEcdhEsA256kw) tr (.ok out) ∧
    Answers World.env tr := by
  have h : World.testRun World.env (wrapInForward Toy.sized b!"{ \"a\" : [1] }" none World.bob [World.mediator, World.mediator] .xc20pEcdhEsA256kw)
    (fun _ _ => true) = true := by decide +kernel
  obtain ⟨tr, out, r, a, -⟩ := World.of_run h
  exact ⟨_, tr, out, rfl, r, a⟩

end DIDComm
