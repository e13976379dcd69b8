import Verif.Proofs.Devices
import Verif.Props.Agree

/-!
# C108: what difference the secrets of a receiver make
-/

set_option autoImplicit false

namespace DIDComm

variable {C : Crypto} {E E' : Env}

/-- C108: unless all keys have to open a message, only the first key that `find_secrets` reports counts.  Receivers who see the same
documents, and whose resolvers report the same first key for any list of keys, and the same secret for it, get the same result or the same
error, whatever else the resolvers report. -/
theorem C108_first_only (hd : NeverLonger C) (hf : PrintsFloats C) (t : Str) (opts : UnpackOptions)
    (ho : opts.expectDecryptByAllKeys = false) (h : SameFirst E E') (r : Res (Message × UnpackMetadata)) :
    (∃ tr, Answers E tr ∧ Runs (unpack C t opts) tr r) ↔ ∃ tr, Answers E' tr ∧ Runs (unpack C t opts) tr r := by
  have key : ∀ {E E' : Env}, SameFirst E E' → (∃ tr, Answers E tr ∧ Runs (unpack C t opts) tr r) →
      ∃ tr, Answers E' tr ∧ Runs (unpack C t opts) tr r := by
    intro E E' h ⟨tr, ha, hr⟩
    have hx := (C81_unpack hd hf t opts tr r hr ha).sameFirst ho h
    obtain ⟨h1, h2⟩ := Prog.run_spec E' id (unpack C t opts)
    rw [(C81_exact hd hf t opts r).1 hx _ _ h1 h2] at h1
    exact ⟨_, h2, h1⟩
  exact ⟨key h, key h.symm⟩

/-- C108: what a receiver accepts who wants all keys to open it, every device of the receiver that has one of the keys accepts, with the
same message and metadata, whether or not all the keys it has are to open it.  A device that has none of them says so.  The cipher has to
commit; and if forwards are unwrapped the device has to have secrets for the targets of the forwards inside that the receiver has secrets
for. -/
theorem C108_each_device (hd : NeverLonger C) (hf : PrintsFloats C) (hc : ∀ ce, CommitsTo C ce) (t : Str) (o o' : UnpackOptions)
    (hall : o.expectDecryptByAllKeys = true) (ho : o.unwrapReWrappingForward = o'.unwrapReWrappingForward) (h : DeviceOf E' E)
    (hs : o.unwrapReWrappingForward = true → ∀ u m next v r, Within C t u → fromJson (dMessage C.f64) u = .ok m → IsForward m next v →
      Ours E next r → Ours E' next r)
    (x : Message × UnpackMetadata) (hx : ∃ tr, Answers E tr ∧ Runs (unpack C t o) tr (.ok x)) :
    Returns E' (unpack C t o') x ∨
      ∀ tr r, Answers E' tr → Runs (unpack C t o') tr r → r = .error (.kind .secretNotFound) := by
  obtain ⟨tr, ha, hr⟩ := hx
  rcases (C81_unpack hd hf t o tr _ hr ha).device hall ho h hc hs with g | g
  · have hx := (C81_exact hd hf t o' _).1 g
    obtain ⟨h1, h2⟩ := Prog.run_spec E' id (unpack C t o')
    have e := hx _ _ h1 h2
    rw [e] at h1
    exact .inl ⟨⟨_, h2, h1⟩, fun tr r ha hr => hx tr r hr ha⟩
  · exact .inr fun tr r ha hr => (C81_exact hd hf t o' _).1 g tr r hr ha

/-! ## Examples -/

/-- With the example resolvers, whoever has some of the secrets is a device of whoever has all. -/
theorem World.device (docs : List DIDDoc) (few all : List Secret) (h : ∀ s ∈ few, all.find? (fun s' => s'.id == s.id) = some s) :
    DeviceOf (World.envOf docs few) (World.envOf docs all) := by
  have key : ∀ (kid : Str) (s : Secret), few.find? (fun s => s.id == kid) = some s → all.find? (fun s => s.id == kid) = some s := by
    intro kid s hs
    have hk := List.find?_some hs
    simp only [beq_iff_eq] at hk
    rw [← hk]
    exact h s (List.mem_of_find?_eq_some hs)
  refine ⟨fun _ _ h => h, fun kids found hf => ⟨_, rfl, fun kid hk => ?_⟩⟩
  cases hf
  simp only [exampleFindSecrets, List.mem_filter] at hk
  obtain ⟨s, hs⟩ := Option.isSome_iff_exists.1 hk.2
  refine ⟨List.mem_filter.2 ⟨hk.1, by rw [key kid s hs]; rfl⟩, ?_⟩
  simp only [World.envOf, exampleGetSecret, hs, key kid s hs]

theorem World.bobX1_device : DeviceOf World.bobX1 World.bobEnv :=
  World.device _ _ _ fun s hs => by obtain rfl := List.mem_singleton.1 hs; rfl
theorem World.bobX2_device : DeviceOf World.bobX2 World.bobEnv :=
  World.device _ _ _ fun s hs => by obtain rfl := List.mem_singleton.1 hs; rfl

/-- Bob wants both keys to open a message of Alice's; so the device with the first key reads it too, and so does the other. -/
example : ∃ x, Returns World.bobEnv (unpack Toy.strict World.strictText { unwrapReWrappingForward := false, expectDecryptByAllKeys := true }) x ∧
    Returns World.bobX1 (unpack Toy.strict World.strictText { unwrapReWrappingForward := false }) x ∧
    Returns World.bobX2 (unpack Toy.strict World.strictText { unwrapReWrappingForward := false, expectDecryptByAllKeys := true }) x := by
  obtain ⟨tr, x, h, ha, -⟩ := World.of_test World.strict_both
  obtain ⟨tr1, x1, h1, ha1, -⟩ := World.of_test World.strict_x1
  obtain ⟨tr2, x2, h2, ha2, -⟩ := World.of_test World.strict_x2
  generalize World.strictText = t at *
  have e1 := C108_each_device Toy.strict_neverLonger Toy.strict_printsFloats
    Toy.strict_commits t { unwrapReWrappingForward := false, expectDecryptByAllKeys := true }
    { unwrapReWrappingForward := false } rfl rfl World.bobX1_device (fun h => by cases h) x ⟨tr, ha, h⟩
  have e2 := C108_each_device Toy.strict_neverLonger
    Toy.strict_printsFloats Toy.strict_commits t _ { unwrapReWrappingForward := false, expectDecryptByAllKeys := true } rfl rfl World.bobX2_device (fun h => by cases h) x ⟨tr, ha, h⟩
  refine ⟨x, ⟨⟨tr, ha, h⟩, fun tr' r ha' h' => C81_determined Toy.strict_neverLonger Toy.strict_printsFloats t _ _ _ _ _ h' ha' h ha⟩, ?_, ?_⟩
  · rcases e1 with e | e
    · exact e
    · cases e tr1 _ ha1 h1
  · rcases e2 with e | e
    · exact e
    · cases e tr2 _ ha2 h2

/-- A resolver that reports only the first key it finds serves as well. -/
example : SameFirst World.bobEnv { World.bobEnv with findSecrets := fun kids => .ok ((exampleFindSecrets ((World.secrets.drop 5).take 3) kids).take 1) } ∧
    World.bobEnv.findSecrets [b!"did:example:bob#x1", b!"did:example:bob#x2"] = .ok [b!"did:example:bob#x1", b!"did:example:bob#x2"] := by
  refine ⟨⟨fun _ => rfl, fun kids => ?_, fun _ _ _ _ => rfl⟩, rfl⟩
  simp only [World.bobEnv, World.envOf]
  cases exampleFindSecrets ((World.secrets.drop 5).take 3) kids with
  | nil => exact .nothing
  | cons k l => exact .first _ _ _

/-- Bob with the X25519 keys only. -/
def World.bobX12 : Env := World.envOf [World.aliceDoc, World.bobDoc, World.mediatorDoc] ((World.secrets.drop 6).take 2)

/-! ## More secrets can hurt -/

/-- What Alice sends to Bob's two X25519 keys, with something else in place of what was wrapped for the first. -/
def World.spoiled : Str :=
  match ((packEncrypted Toy.crypto World.msg World.bob none none { forward := false }).run World.aliceEnv id).2 with
  | .ok x =>
    match jweFromStr x.1 with
    | .ok j => (JWE.toJson { j with recipients := j.recipients.mapIdx fun i r => if i = 0 then { r with encryptedKey := b!"AA" } else r }).print
    | .error _ => []
  | .error _ => []

set_option maxRecDepth 1000000 in
theorem World.spoiled_x2 : World.test World.bobX2 (unpack Toy.crypto World.spoiled {})
    (fun x => x.1.id == b!"1" && x.2.encryptedToKids == some [b!"did:example:bob#x1", b!"did:example:bob#x2"]) = true := by decide +kernel

set_option maxRecDepth 1000000 in
theorem World.spoiled_both : World.testError World.bobX12 (unpack Toy.crypto World.spoiled {}) (.kind .malformed) = true := by decide +kernel

/-- C108 (negative): a device that has one of two keys can read a message which a receiver who has both cannot read, although not all keys
are to open it: the first key that is found has to open it, the others are not tried. -/
theorem C108_more_can_hurt : ∃ (C : Crypto) (pairs : Curve → C.Key → C.Key → Prop) (t : Str) (E E' : Env) (tr tr' : List Event)
    (x : Message × UnpackMetadata), C.Lawful pairs ∧ DeviceOf E' E ∧
    Answers E' tr' ∧ Runs (unpack C t {}) tr' (.ok x) ∧
    Answers E tr ∧ Runs (unpack C t {}) tr (.error (.kind .malformed)) := by
  obtain ⟨tr', x, h', ha', -⟩ := World.of_test World.spoiled_x2
  obtain ⟨tr, h, ha⟩ := World.of_testError World.spoiled_both
  exact ⟨Toy.crypto, Toy.pairs, World.spoiled, World.bobX12, World.bobX2, tr, tr', x, Toy.lawful,
    World.device _ _ _ (fun s hs => by obtain rfl := List.mem_singleton.1 hs; rfl), ha', h', ha, h⟩

end DIDComm
