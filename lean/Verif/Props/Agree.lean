import Verif.Proofs.Agree
import Verif.Proofs.Toy
import Verif.Props.OutcomeUnpack
import Verif.Spec.Receiver
import Verif.Spec.World

/-!
# C101: who accepts a text sees the same message as everybody else who does

Keys, documents and options decide whether a text is accepted, not what it says; except that a cipher that lets one ciphertext open to two
plaintexts lets a sender say different things to different keys.
-/

set_option autoImplicit false

namespace DIDComm

variable {C : Crypto}

/-- C101: if two receivers accept a text, they get the same message and the same metadata, whoever they are: whatever keys they open it
with, whatever documents they know, and whether or not they want all their keys to open it.  Both unwrap forwards or neither does, and in
the first case they have secrets for the same targets.  The cipher has to commit: A256CBC-HS512 for a message encrypted by a named sender,
all three if there is an anonymous envelope, none for a message that is not encrypted. -/
theorem C101_same (E E' : Env) (t : Str) (o o' : UnpackOptions) (tr tr' : List Event) (m m' : Message) (md md' : UnpackMetadata)
    (h : Runs (unpack C t o) tr (.ok (m, md))) (ha : Answers E tr) (h' : Runs (unpack C t o') tr' (.ok (m', md'))) (ha' : Answers E' tr')
    (ho : o.unwrapReWrappingForward = o'.unwrapReWrappingForward) (hs : o.unwrapReWrappingForward = true → SameTargets E E')
    (hc : md.encAlgAuth ≠ none → CommitsTo C .a256cbcHs512) (hca : md.encAlgAnon ≠ none → ∀ ce, CommitsTo C ce) : m = m' ∧ md = md' := by
  rcases unpacked t o tr _ h ha with hx | hx
  · cases hx
  rcases unpacked t o' tr' _ h' ha' with hx' | hx'
  · cases hx'
  cases hx.agree ho hs hx' hc hca
  exact ⟨rfl, rfl⟩

/-- C101: to want all keys to open a message never changes what it says: what is accepted so is accepted without the option, with the same
message and metadata. -/
theorem C101_all_keys (E : Env) (t : Str) (o : UnpackOptions) (x : Message × UnpackMetadata) (hd : NeverLonger C) (hf : PrintsFloats C)
    (h : Returns E (unpack C t o) x) (hc : ∀ ce, CommitsTo C ce) :
    Returns E (unpack C t { o with expectDecryptByAllKeys := false }) x := by
  obtain ⟨⟨tr, ha, hr⟩, -⟩ := h
  have hx := (C81_unpack hd hf t o tr _ hr ha).first (fun _ => hc _) (fun _ => hc)
  have hall := (C81_exact hd hf t _ _).1 hx
  obtain ⟨h1, h2⟩ := Prog.run_spec E id (unpack C t { o with expectDecryptByAllKeys := false })
  have := hall _ _ h1 h2
  rw [this] at h1
  exact ⟨⟨_, h2, h1⟩, fun tr r ha hr => hall tr r hr ha⟩

/-! ## The hypotheses are met -/

theorem Toy.strict_commits (ce : ContentEnc) : CommitsTo Toy.strict ce := by
  intro k k' nonce aad x p p' h h'
  simp only [Toy.strict] at h h'
  split at h
  · split at h'
    · cases h; cases h'; rfl
    · cases h'
  · cases h

theorem Toy.strict_neverLonger : NeverLonger Toy.strict := by
  intro ce k iv aad x p h
  simp only [Toy.strict] at h
  split at h
  · cases h; simp only [List.length_take, List.length_drop]; omega
  · cases h

theorem Toy.strict_printsFloats : PrintsFloats Toy.strict := by
  intro s t h
  simp only [Toy.strict, Toy.crypto] at h
  split at h
  · cases h; assumption
  · cases h

/-- The strict cipher works: the laws of the round trips hold of it. -/
theorem Toy.strict_lawful : Toy.strict.Lawful Toy.pairs where
  verify_sign := Toy.lawful.verify_sign
  ecdhEs_agree := Toy.lawful.ecdhEs_agree
  ecdh1pu_agree := Toy.lawful.ecdh1pu_agree
  unwrap_wrap := Toy.lawful.unwrap_wrap
  jwk_ok := Toy.lawful.jwk_ok
  dec_enc := by
    intro ce k iv aad pt ct tag h
    simp only [Toy.strict, Option.some.injEq, Prod.mk.injEq] at h ⊢
    obtain ⟨rfl, rfl⟩ := h
    have : ((List.replicate pt.length (0 : UInt8) ++ 1 :: pt ++ Toy.ceByte ce :: (k ++ iv ++ aad)).takeWhile (· == 0)).length = pt.length := by
      rw [List.append_assoc, List.takeWhile_append_of_pos (by simp)]
      simp
    rw [this]
    simp [List.append_assoc, List.drop_append]

theorem Toy.loose_lawful : Toy.loose.Lawful Toy.pairs where
  verify_sign := Toy.lawful.verify_sign
  ecdhEs_agree := Toy.lawful.ecdhEs_agree
  ecdh1pu_agree := Toy.lawful.ecdh1pu_agree
  unwrap_wrap := Toy.lawful.unwrap_wrap
  jwk_ok := Toy.lawful.jwk_ok
  dec_enc := by
    intro ce k iv aad pt ct tag h
    have := Toy.lawful.dec_enc (ce := ce) (k := k) (iv := iv) (aad := aad) (pt := pt) (ct := ct) (tag := tag) h
    simp only [Toy.crypto] at this
    simp only [Toy.loose]
    rw [this]

/-- What Alice sends to Bob's two X25519 keys, with the strict cipher. -/
def World.strictText : Str :=
  match ((packEncrypted Toy.strict World.msg World.bob none none { forward := false }).run World.aliceEnv id).2 with
  | .ok x => x.1
  | .error _ => []

set_option maxRecDepth 1000000 in
theorem World.strict_x1 : World.test World.bobX1 (unpack Toy.strict World.strictText { unwrapReWrappingForward := false })
    (fun x => x.1.id == b!"1" && x.2.encAlgAnon.isSome) = true := by decide +kernel

set_option maxRecDepth 1000000 in
theorem World.strict_x2 : World.test World.bobX2 (unpack Toy.strict World.strictText
    { unwrapReWrappingForward := false, expectDecryptByAllKeys := true }) (fun x => x.1.id == b!"1") = true := by decide +kernel

/-- Two devices of Bob, each with one of the keys, read the same. -/
example : ∃ (tr tr' : List Event) (m : Message) (md : UnpackMetadata), md.encAlgAnon ≠ none ∧ m.id = b!"1" ∧
    Answers World.bobX1 tr ∧ Answers World.bobX2 tr' ∧
    Runs (unpack Toy.strict World.strictText { unwrapReWrappingForward := false }) tr (.ok (m, md)) ∧
    Runs (unpack Toy.strict World.strictText { unwrapReWrappingForward := false, expectDecryptByAllKeys := true }) tr' (.ok (m, md)) := by
  obtain ⟨tr, ⟨m, md⟩, h, ha, hm⟩ := World.of_test World.strict_x1
  obtain ⟨tr', ⟨m', md'⟩, h', ha', -⟩ := World.of_test World.strict_x2
  obtain ⟨rfl, rfl⟩ := C101_same World.bobX1 World.bobX2 _ _ _ tr tr' m m' md md' h ha h' ha' rfl nofun
    (fun _ => Toy.strict_commits _) (fun _ => Toy.strict_commits)
  simp only [Bool.and_eq_true, beq_iff_eq] at hm
  exact ⟨tr, tr', m, md, fun hn => by rw [hn] at hm; exact absurd hm.2 nofun, hm.1, ha, ha', h, h'⟩

set_option maxRecDepth 1000000 in
theorem World.strict_both : World.test World.bobEnv (unpack Toy.strict World.strictText
    { unwrapReWrappingForward := false, expectDecryptByAllKeys := true }) (fun x => x.1.id == b!"1") = true := by decide +kernel

/-- With both keys Bob reads the same whether or not both have to open it. -/
example : ∃ x, Returns World.bobEnv (unpack Toy.strict World.strictText { unwrapReWrappingForward := false, expectDecryptByAllKeys := true }) x ∧
    Returns World.bobEnv (unpack Toy.strict World.strictText { unwrapReWrappingForward := false, expectDecryptByAllKeys := false }) x := by
  obtain ⟨tr, x, h, ha, -⟩ := World.of_test World.strict_both
  generalize World.strictText = t at h ⊢
  have hr : Returns World.bobEnv (unpack Toy.strict t { unwrapReWrappingForward := false, expectDecryptByAllKeys := true }) x :=
    ⟨⟨tr, ha, h⟩, fun tr' r ha' h' => C81_determined Toy.strict_neverLonger Toy.strict_printsFloats t _ _ _ _ _ h' ha' h ha⟩
  exact ⟨x, hr, C101_all_keys World.bobEnv t _ x Toy.strict_neverLonger Toy.strict_printsFloats hr Toy.strict_commits⟩

/-! ## A cipher that does not commit -/

/-- What the first key is to see. -/
def World.sayOne : Message := { id := b!"1", type_ := b!"t", body := .obj [] }
/-- What the second key is to see. -/
def World.sayTwo : Message := { id := b!"2", type_ := b!"t", body := .obj [] }

set_option maxRecDepth 1000000 in
theorem World.twoFaced_first : World.test World.bobEnv (unpack Toy.loose (World.twoFaced World.sayOne World.sayTwo) {})
    (fun x => x.1.id == b!"1") = true := by decide +kernel

set_option maxRecDepth 1000000 in
theorem World.twoFaced_all : World.test World.bobEnv (unpack Toy.loose (World.twoFaced World.sayOne World.sayTwo)
    { expectDecryptByAllKeys := true }) (fun x => x.1.id == b!"2" && x.2.encryptedToKids == some [b!"did:example:bob#x1", b!"did:example:bob#x2"])
    = true := by decide +kernel

set_option maxRecDepth 1000000 in
theorem World.twoFaced_x1 : World.test World.bobX1 (unpack Toy.loose (World.twoFaced World.sayOne World.sayTwo) {})
    (fun x => x.1.id == b!"1") = true := by decide +kernel

set_option maxRecDepth 1000000 in
theorem World.twoFaced_x2 : World.test World.bobX2 (unpack Toy.loose (World.twoFaced World.sayOne World.sayTwo) {})
    (fun x => x.1.id == b!"2") = true := by decide +kernel

/-- Reading the secret of a key. -/
def World.reads (kid : Str) (e : Event) : Bool :=
  match e with
  | ⟨.getSecret k, .ok (some _)⟩ => k == kid
  | _ => false

set_option maxRecDepth 1000000 in
theorem World.twoFaced_reads : ((unpack Toy.loose (World.twoFaced World.sayOne World.sayTwo) { expectDecryptByAllKeys := true }).run World.bobEnv id).1.map
    (fun e => (World.reads b!"did:example:bob#x1" e, World.reads b!"did:example:bob#x2" e)) = [(false, false), (true, false), (false, true)] := by
  decide +kernel

theorem World.reads_get {kid : Str} {e : Event} (h : World.reads kid e = true) : ∃ s, e = evGet kid (some s) := by
  unfold World.reads at h
  split at h
  · rename_i k s
    rw [beq_iff_eq] at h
    subst h
    exact ⟨s, rfl⟩
  · cases h

/-- C101 (negative): with a cipher that does not commit, although it decrypts whatever it encrypted, a sender can make one text say one
thing to one device of the receiver and another to the other; and a receiver with both keys who asks that all keys open the message is not
told that they do not agree: what the last one opened is returned. -/
theorem C101_two_faced : ∃ (C : Crypto) (pairs : Curve → C.Key → C.Key → Prop) (t : Str) (E E1 E2 : Env) (tr trAll tr1 tr2 : List Event)
    (x xAll x1 x2 : Message × UnpackMetadata), C.Lawful pairs ∧
    Answers E1 tr1 ∧ Runs (unpack C t {}) tr1 (.ok x1) ∧ x1.1.id = b!"1" ∧ Answers E2 tr2 ∧ Runs (unpack C t {}) tr2 (.ok x2) ∧ x2.1.id = b!"2" ∧
    Answers E tr ∧ Runs (unpack C t {}) tr (.ok x) ∧ x.1.id = b!"1" ∧
    Answers E trAll ∧ Runs (unpack C t { expectDecryptByAllKeys := true }) trAll (.ok xAll) ∧ xAll.1.id = b!"2" ∧
    (∃ s1 s2, evGet b!"did:example:bob#x1" (some s1) ∈ trAll ∧ evGet b!"did:example:bob#x2" (some s2) ∈ trAll) := by
  obtain ⟨tr1, x1, h1, a1, k1⟩ := World.of_test World.twoFaced_x1
  obtain ⟨tr2, x2, h2, a2, k2⟩ := World.of_test World.twoFaced_x2
  obtain ⟨tr, x, h, a, k⟩ := World.of_test World.twoFaced_first
  have kAll := World.twoFaced_all
  have hr := World.twoFaced_reads
  obtain ⟨hAll, aAll⟩ := Prog.run_spec World.bobEnv id
    (unpack Toy.loose (World.twoFaced World.sayOne World.sayTwo) { expectDecryptByAllKeys := true })
  unfold World.test at kAll
  generalize World.twoFaced World.sayOne World.sayTwo = t at *
  revert hAll aAll hr kAll
  generalize (unpack Toy.loose t { expectDecryptByAllKeys := true }).run World.bobEnv id = run
  obtain ⟨trAll, r⟩ := run
  intro kAll hr hAll aAll
  cases r with
  | error e => cases kAll
  | ok xAll =>
    simp only [Bool.and_eq_true, beq_iff_eq] at k1 k2 k kAll
    refine ⟨_, _, t, World.bobEnv, World.bobX1, World.bobX2, tr, trAll, tr1, tr2, x, xAll, x1, x2, Toy.loose_lawful, a1, h1, k1, a2, h2, k2, a, h, k,
      aAll, hAll, kAll.1, ?_⟩
    have m1 : (true, false) ∈ trAll.map (fun e => (World.reads b!"did:example:bob#x1" e, World.reads b!"did:example:bob#x2" e)) := by
      rw [hr]; decide
    have m2 : (false, true) ∈ trAll.map (fun e => (World.reads b!"did:example:bob#x1" e, World.reads b!"did:example:bob#x2" e)) := by
      rw [hr]; decide
    obtain ⟨e1, q1, g1⟩ := List.mem_map.1 m1
    obtain ⟨e2, q2, g2⟩ := List.mem_map.1 m2
    obtain ⟨s1, rfl⟩ := World.reads_get (Prod.mk.inj g1).1
    obtain ⟨s2, rfl⟩ := World.reads_get (Prod.mk.inj g2).2
    exact ⟨s1, s2, q1, q2⟩

end DIDComm
