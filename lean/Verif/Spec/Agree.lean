import Verif.Spec.OutcomeUnpack
import Verif.Spec.World

/-!
# When two receivers see the same

What content encryption has to provide so that the same text means the same to everybody who can open it.
-/

set_option autoImplicit false

namespace DIDComm

/-- A ciphertext opens to one plaintext only, whichever keys open it.  (Authenticated encryption does not provide this by itself: of the
ciphers of the library, A256CBC-HS512 does, XC20P and A256GCM do not.) -/
def CommitsTo (C : Crypto) (ce : ContentEnc) : Prop :=
  ∀ k k' nonce aad x p p', C.aeadDec ce k nonce aad x = some p → C.aeadDec ce k' nonce aad x = some p' → p = p'

/-- Two receivers have secrets for the same targets of forward messages. -/
def SameTargets (E E' : Env) : Prop := ∀ next b b', Ours E next (.ok b) → Ours E' next (.ok b') → b = b'

/-! ## Two toy ciphers -/

/-- Toy primitives with a cipher that commits: the length of the plaintext comes first, so keys only decide whether it opens. -/
def Toy.strict : Crypto :=
  { Toy.crypto with
    aeadEnc := fun ce k iv aad pt => some (List.replicate pt.length 0 ++ 1 :: pt, Toy.ceByte ce :: (k ++ iv ++ aad))
    aeadDec := fun ce k iv aad d =>
      let n := (d.takeWhile (· == 0)).length
      let rest := d.drop (n + 1)
      if rest.drop n = Toy.ceByte ce :: (k ++ iv ++ aad) then some (rest.take n) else none }

/-- Toy primitives with a cipher that does not: with the key `[9]` everything that does not open as it should opens to its nonce. -/
def Toy.loose : Crypto :=
  { Toy.crypto with
    aeadDec := fun ce k iv aad d =>
      match Toy.dropSuffix (Toy.ceByte ce :: (k ++ iv ++ aad)) d with
      | some p => some p
      | none => if k = [9] ∧ iv.length ≤ d.length then some iv else none }

/-- Bob's agent on a device that has only the first X25519 key. -/
def World.bobX1 : Env := World.envOf [World.aliceDoc, World.bobDoc, World.mediatorDoc] ((World.secrets.drop 6).take 1)
/-- Bob's agent on a device that has only the second X25519 key. -/
def World.bobX2 : Env := World.envOf [World.aliceDoc, World.bobDoc, World.mediatorDoc] ((World.secrets.drop 7).take 1)

/-- An anonymous envelope for two keys of Bob, made by somebody who means `one` for the first and `two` for the second: the content key is
wrapped for the first, the key `[9]` for the second, and the nonce is the text of `two`. -/
def World.twoFaced (one two : Message) : Str :=
  let kids := [b!"did:example:bob#x1", b!"did:example:bob#x2"]
  let epk : Value := .obj [(b!"crv", .str b!"B"), (b!"x", .str (B64.encode [7]))]
  let apv := joinWith 0x2E (sortStrs kids)
  let prot := B64.encode (JweHeader.toJson
    { typ := some b!"application/didcomm-encrypted+json", alg := .ecdhEs, enc := .a256gcm, skid := none, apu := none,
      apv := B64.encode apv, epk := epk }).print
  let kw := fun (key : UInt8) => 2 :: ([7] ++ [key] ++ b!"ECDH-ES+A256KW" ++ [] ++ apv)
  (JWE.toJson ⟨prot, [⟨b!"did:example:bob#x1", B64.encode (kw 12 ++ [5])⟩, ⟨b!"did:example:bob#x2", B64.encode (kw 13 ++ [9])⟩],
    B64.encode two.toJson.print, B64.encode one.toJson.print, B64.encode (3 :: ([5] ++ two.toJson.print ++ prot))⟩).print

end DIDComm
