import Verif.Spec.Primitives
import Verif.Spec.Authentic
import Verif.Model.Unpack
import Verif.Proofs.Runs
import Verif.Proofs.Wire

/-! # Other primitives: proofs -/

set_option autoImplicit false

namespace DIDComm

variable {C : Crypto} {P : Primitives C.Key} {α β γ : Type}

/-- The same pair of keys. -/
def KeyPair.conv (P : Primitives C.Key) (p : KeyPair C) : KeyPair (C.replaced P) := ⟨p.curve, p.key⟩

theorem prog_congr {p q : Prog α} {f g : α → Prog β} (h : p = q) (hf : ∀ a, f a = g a) : p >>= f = q >>= g := by
  rw [h, funext hf]

theorem then_congr {p : Prog α} {f g : α → Prog β} (hf : ∀ a, f a = g a) : p >>= f = p >>= g := prog_congr rfl hf

theorem lift_conv {r : Res α} {g : α → β} {f : β → Prog γ} {h : α → Prog γ} (hf : ∀ a, f (g a) = h a) :
    Prog.lift (r.map g) >>= f = Prog.lift r >>= h := by
  cases r with
  | ok a => exact hf a
  | error e => rfl

theorem lift_congr {r r' : Res α} {f g : α → Prog γ} (h : r = r') (hf : ∀ a, r' = .ok a → f a = g a) :
    Prog.lift r >>= f = Prog.lift r' >>= g := by
  subst h
  cases r with
  | ok a => exact hf a rfl
  | error e => rfl

/-! ## Keys -/

theorem pairFromJwk_replaced (c : Curve) (v : Value) : pairFromJwk (C.replaced P) c v = (pairFromJwk C c v).map (KeyPair.conv P) := by
  unfold pairFromJwk
  show (okOr .malformed (C.fromJwk c v) >>= _) = _
  cases C.fromJwk c v <;> rfl

theorem map_bind {r : Res α} {f : α → Res β} {g : β → γ} : (r >>= f).map g = r >>= fun a => (f a).map g := by
  cases r <;> rfl

theorem x25519Secret_replaced (d : Bytes) : x25519Secret (C.replaced P) d = (x25519Secret C d).map (KeyPair.conv P) := by
  unfold x25519Secret
  simp only [map_bind, pairFromJwk_replaced]

theorem ed25519Secret_replaced (d : Bytes) : ed25519Secret (C.replaced P) d = (ed25519Secret C d).map (KeyPair.conv P) := by
  unfold ed25519Secret
  split
  · rfl
  · exact pairFromJwk_replaced _ _

theorem secret_replaced (s : Secret) : s.asKeyPair (C.replaced P) = (s.asKeyPair C).map (KeyPair.conv P) := by
  unfold Secret.asKeyPair
  split
  · split
    · exact pairFromJwk_replaced _ _
    · rfl
  · simp only [map_bind, x25519Secret_replaced]
  · simp only [map_bind, ed25519Secret_replaced]
  · simp only [map_bind, x25519Secret_replaced]
  · simp only [map_bind, ed25519Secret_replaced]
  · rfl

theorem method_replaced (v : VerificationMethod) : v.asKeyPair (C.replaced P) = (v.asKeyPair C).map (KeyPair.conv P) := by
  unfold VerificationMethod.asKeyPair
  split
  · split
    · exact pairFromJwk_replaced _ _
    · rfl
  · simp only [map_bind, pairFromJwk_replaced]
  · simp only [map_bind, pairFromJwk_replaced]
  · simp only [map_bind, pairFromJwk_replaced]
  · simp only [map_bind, pairFromJwk_replaced]
  · rfl

theorem asCurve_replaced {want : Curve} {alg : Option Curve} {r : Res (KeyPair C)} :
    asCurve (C := C.replaced P) want alg (r.map (KeyPair.conv P)) = asCurve want alg r := by
  unfold asCurve
  cases r <;> rfl

theorem methodAs_replaced (c : Curve) (v : VerificationMethod) : v.as (C.replaced P) c = v.as C c := by
  unfold VerificationMethod.as
  rw [method_replaced, asCurve_replaced]

theorem secretAs_replaced (c : Curve) (v : Secret) : v.as (C.replaced P) c = v.as C c := by
  unfold Secret.as
  rw [secret_replaced, asCurve_replaced]

theorem keysOf_replaced (c : Curve) (l : List VerificationMethod) : keysOf (C.replaced P) c l = keysOf C c l := by
  induction l with
  | nil => rfl
  | cons v r ih =>
    unfold keysOf
    rw [methodAs_replaced, ih]

/-! ## Opening -/

theorem derive_opening (h : SameOpening C P) (kdf : Kdf) (c : Curve) (e : C.Key) (s : Option C.Key) (r : C.Key) (alg apu apv tag : Bytes) :
    deriveKey (C.replaced P) kdf c e s r alg apu apv tag true = deriveKey C kdf c e s r alg apu apv tag true := by
  unfold deriveKey
  cases kdf with
  | ecdhEs => simp only [h.derives]
  | ecdh1pu => cases s <;> simp only [h.derives1pu]

theorem decrypt_replaced (h : SameOpening C P) (ce : ContentEnc) (kdf : Kdf) (c : Curve) (p : ParsedJWE) (s : Option (Str × C.Key)) (kid : Str)
    (key : C.Key) : p.decrypt (C.replaced P) ce kdf c s kid key = p.decrypt C ce kdf c s kid key := by
  unfold ParsedJWE.decrypt
  simp only [derive_opening h, h.unwraps, h.decrypts]

theorem decryptLoop_replaced {all : Bool} {f' : Str → KeyPair (C.replaced P) → Res α} {f : Str → KeyPair C → Res α}
    (h : ∀ kid p, f' kid (p.conv P) = f kid p) : ∀ (l : List Str) (acc : Option α),
    decryptLoop (C.replaced P) all f' l acc = decryptLoop C all f l acc
  | [], _ => rfl
  | kid :: r, acc => by
    unfold decryptLoop
    refine then_congr fun s => then_congr fun s => ?_
    rw [secret_replaced]
    refine lift_conv fun p => ?_
    rw [h]
    refine then_congr fun x => ?_
    rw [decryptLoop_replaced h r]

theorem anonDecrypt_replaced (h : SameOpening C P) (p : ParsedJWE) (kid : Str) (k : KeyPair C) :
    anonDecryptWith (C.replaced P) p kid (k.conv P) = anonDecryptWith C p kid k := by
  unfold anonDecryptWith KeyPair.conv
  simp only [decrypt_replaced h]

theorem authDecrypt_replaced (h : SameOpening C P) (p : ParsedJWE) (from_ kid : Str) (s k : KeyPair C) :
    authDecryptWith (C.replaced P) p from_ (s.conv P) kid (k.conv P) = authDecryptWith C p from_ s kid k := by
  unfold authDecryptWith KeyPair.conv
  simp only [decrypt_replaced h]

theorem tryAnon_replaced (h : SameOpening C P) (msg : Str) (o : UnpackOptions) (md : UnpackMetadata) :
    tryUnpackAnoncrypt (C.replaced P) msg o md = tryUnpackAnoncrypt C msg o md := by
  unfold tryUnpackAnoncrypt
  refine then_congr fun j => ?_
  cases j with
  | none => rfl
  | some j =>
    refine prog_congr rfl fun p => ?_
    simp only [decryptLoop_replaced (anonDecrypt_replaced h _)]
    rfl

theorem tryAuth_replaced (h : SameOpening C P) (msg : Str) (o : UnpackOptions) (md : UnpackMetadata) :
    tryUnpackAuthcrypt (C.replaced P) msg o md = tryUnpackAuthcrypt C msg o md := by
  unfold tryUnpackAuthcrypt
  refine then_congr fun j => ?_
  cases j with
  | none => rfl
  | some j =>
    refine prog_congr rfl fun p => ?_
    dsimp only
    split
    · rfl
    refine prog_congr rfl fun p => then_congr fun k => ?_
    split
    · rfl
    split
    · rfl
    refine then_congr fun d => then_congr fun d => then_congr fun k => then_congr fun vm => ?_
    rw [method_replaced]
    refine lift_conv fun s => ?_
    simp only [decryptLoop_replaced (authDecrypt_replaced h _ _ · s)]

theorem trySign_replaced (h : P.verify = C.verify) (msg : Str) (md : UnpackMetadata) :
    tryUnpackSign (C.replaced P) msg md = tryUnpackSign C msg md := by
  unfold tryUnpackSign ParsedJWS.verify
  simp only [methodAs_replaced, h]

theorem priorUnpack_replaced (h : P.verify = C.verify) (jwt : Str) : FromPrior.unpack (C.replaced P) jwt = FromPrior.unpack C jwt := by
  unfold FromPrior.unpack ParsedCompactJWS.verify
  simp only [methodAs_replaced, h]

theorem tryPlain_replaced (h : P.verify = C.verify) (msg : Str) (md : UnpackMetadata) :
    tryUnpackPlaintext (C.replaced P) msg md = tryUnpackPlaintext C msg md := by
  unfold tryUnpackPlaintext
  simp only [priorUnpack_replaced h]
  rfl

theorem unwrapLoop_replaced (h : SameOpening C P) (o : UnpackOptions) : ∀ (n : Nat) (msg : Str) (md : UnpackMetadata),
    unwrapLoop (C.replaced P) o n msg md = unwrapLoop C o n msg md
  | 0, _, _ => rfl
  | n + 1, msg, md => by
    unfold unwrapLoop
    rw [tryAnon_replaced h]
    simp only [unwrapLoop_replaced h o n]
    rfl

theorem unpack_replaced (h : SameOpening C P) (hv : P.verify = C.verify) (msg : Str) (o : UnpackOptions) :
    unpack (C.replaced P) msg o = unpack C msg o := by
  unfold unpack
  simp only [unwrapLoop_replaced h, tryAuth_replaced h, trySign_replaced hv, tryPlain_replaced hv]

/-! ## Signing -/

theorem plaintext_replaced {m : Message} (hv : m.fromPrior ≠ none → P.verify = C.verify) :
    packPlaintext (C.replaced P) m = packPlaintext C m := by
  unfold packPlaintext
  refine prog_congr ?_ fun _ => rfl
  cases hm : m.fromPrior with
  | none => rfl
  | some jwt =>
    simp only [unpackFromPrior, priorUnpack_replaced (hv (by rw [hm]; simp))]

theorem bind_then {p : Prog α} {f : α → Prog β} {g : β → Prog γ} : (p >>= f) >>= g = p >>= fun a => f a >>= g := by
  induction p with
  | ret r => cases r <;> rfl
  | ask q k ih => exact congrArg (Prog.ask q) (funext ih)

theorem packPlaintext_value (m : Message) (f g : Str → Prog α) (h : f m.toJson.print = g m.toJson.print) :
    packPlaintext C m >>= f = packPlaintext C m >>= g := by
  unfold packPlaintext
  simp only [bind_then]
  exact then_congr fun fp => then_congr fun _ => h

theorem jwsSign_replaced {m : Message}
    (hs : ∀ c k text st, SignsMessage m text → P.sign c k text st = C.sign c k text st) (kid : Str) (c : Curve) (k : C.Key) (alg : JwsAlg) :
    jwsSign (C.replaced P) m.toJson.print kid c k alg = jwsSign C m.toJson.print kid c k alg := by
  have h : ∀ st, P.sign c k (dotJoin (jwsProtected alg) (B64.encode m.toJson.print)) st =
      C.sign c k (dotJoin (jwsProtected alg) (B64.encode m.toJson.print)) st :=
    fun st => hs c k _ st ⟨alg, by simp [dotJoin, jwsProtected, signedTyp, JwsHeader.onWire_eq]⟩
  unfold jwsSign
  simp only [h]

theorem signed_replaced {m : Message} (hv : m.fromPrior ≠ none → P.verify = C.verify)
    (hs : ∀ c k text st, SignsMessage m text → P.sign c k text st = C.sign c k text st) (signBy : Str) :
    packSigned (C.replaced P) m signBy = packSigned C m signBy := by
  unfold packSigned
  split
  · rfl
  refine then_congr fun _ => then_congr fun _ => then_congr fun _ => then_congr fun _ => then_congr fun _ => then_congr fun _ =>
    then_congr fun s => ?_
  rw [secret_replaced]
  refine lift_conv fun p => ?_
  rw [plaintext_replaced hv]
  refine packPlaintext_value m _ _ (then_congr fun alg => ?_)
  simp only [KeyPair.conv, jwsSign_replaced hs]

theorem priorPack_replaced {f : FromPrior} (hs : ∀ c k text st, SignsPrior f text → P.sign c k text st = C.sign c k text st)
    (issuerKid : Option Str) : f.pack (C.replaced P) issuerKid = f.pack C issuerKid := by
  unfold FromPrior.pack
  refine then_congr fun _ => then_congr fun _ => then_congr fun _ => then_congr fun _ => then_congr fun _ => then_congr fun kid =>
    then_congr fun _ => then_congr fun s => ?_
  rw [secret_replaced]
  refine lift_conv fun p => then_congr fun alg => ?_
  have h : ∀ st, P.sign p.curve p.key (dotJoin (B64.encode (CompactHeader.toJson ⟨jwtTyp, alg, kid⟩).print) (B64.encode f.toJson.print)) st =
      C.sign p.curve p.key (dotJoin (B64.encode (CompactHeader.toJson ⟨jwtTyp, alg, kid⟩).print) (B64.encode f.toJson.print)) st :=
    fun st => hs _ _ _ st ⟨alg, kid, by simp [dotJoin, jwtTyp, CompactHeader.onWire_eq]⟩
  unfold jwsSignCompact
  simp only [KeyPair.conv, h]

/-! ## Making envelopes -/

theorem wrapAll_replaced (h : SameMaking C P) {kdf : Kdf} (hs : kdf = .ecdh1pu → SameSending C P) (c : Curve) (e : C.Key)
    (s : Option C.Key) (alg apu apv tag cek : Bytes) : ∀ l : List (Str × C.Key),
    wrapAll (C.replaced P) kdf c e s alg apu apv tag cek l = wrapAll C kdf c e s alg apu apv tag cek l
  | [] => rfl
  | (kid, key) :: r => by
    have hd : deriveKey (C.replaced P) kdf c e s key alg apu apv tag false = deriveKey C kdf c e s key alg apu apv tag false := by
      unfold deriveKey
      cases kdf with
      | ecdhEs => simp only [h.derives]
      | ecdh1pu =>
        cases s with
        | none => rfl
        | some s => simp only [hs rfl c e s key]
    unfold wrapAll
    simp only [hd, wrapAll_replaced h hs c e s alg apu apv tag cek r, h.wraps]

theorem encrypt_replaced (h : SameMaking C P) {kdf : Kdf} (hs : kdf = .ecdh1pu → SameSending C P) (ce : ContentEnc) (c : Curve)
    (pt : Bytes) (alg : JweAlg) (enc : EncAlg) (s : Option (Str × C.Key)) (l : List (Str × C.Key)) :
    jweEncrypt (C.replaced P) ce kdf c pt alg enc s l = jweEncrypt C ce kdf c pt alg enc s l := by
  unfold jweEncrypt
  simp only [wrapAll_replaced h hs, h.prints, h.key, h.cek, h.nonce, h.encrypts]
  rfl

theorem anoncrypt_replaced (h : SameMaking C P) (to : Str) (msg : Bytes) (alg : AnonCryptAlg) :
    anoncrypt (C.replaced P) to msg alg = anoncrypt C to msg alg := by
  unfold anoncrypt
  simp only [keysOf_replaced, encrypt_replaced h (kdf := .ecdhEs) (fun h => by cases h)]

theorem authcrypt_replaced (h : SameMaking C P) (hs : SameSending C P) (to from_ : Str) (msg : Bytes) (a : AuthCryptAlg)
    (b : AnonCryptAlg) (p : Bool) : authcrypt (C.replaced P) to from_ msg a b p = authcrypt C to from_ msg a b p := by
  unfold authcrypt
  simp only [keysOf_replaced, secretAs_replaced, encrypt_replaced h (kdf := .ecdhEs) (fun h => by cases h),
    encrypt_replaced h (kdf := .ecdh1pu) (fun _ => hs)]

theorem buildForward_replaced (hu : P.uuid = C.uuid) (msg next : Str) (headers : Option (List (Str × Value))) :
    buildForwardMessage (C.replaced P) msg next headers = buildForwardMessage C msg next headers := by
  unfold buildForwardMessage
  simp only [hu]

theorem wrapLoop_replaced (h : SameMaking C P) (hu : P.uuid = C.uuid) (headers : Option (List (Str × Value))) (alg : AnonCryptAlg) :
    ∀ (l : List (Str × Str)) (msg : Str), wrapLoop (C.replaced P) headers alg l msg = wrapLoop C headers alg l msg
  | [], _ => rfl
  | (to, next) :: r, msg => by
    unfold wrapLoop
    simp only [buildForward_replaced hu, anoncrypt_replaced h, wrapLoop_replaced h hu headers alg r]

theorem wrap_replaced (h : SameMaking C P) (hu : P.uuid = C.uuid) (msg : Str) (headers : Option (List (Str × Value))) (to : Str)
    (keys : List Str) (alg : AnonCryptAlg) : wrapInForward (C.replaced P) msg headers to keys alg = wrapInForward C msg headers to keys alg := by
  unfold wrapInForward
  simp only [wrapLoop_replaced h hu]

theorem wrapIfNeeded_replaced (h : SameMaking C P) (msg to : Str) (o : PackEncryptedOptions) (hu : o.forward = true → P.uuid = C.uuid) :
    wrapInForwardIfNeeded (C.replaced P) msg to o = wrapInForwardIfNeeded C msg to o := by
  unfold wrapInForwardIfNeeded
  split
  · rfl
  · rename_i ho
    simp only [wrap_replaced h (hu (by simpa using ho))]

theorem encrypted_replaced (h : SameMaking C P) {m : Message} {from_ signBy : Option Str} {o : PackEncryptedOptions}
    (hv : m.fromPrior ≠ none → P.verify = C.verify) (hf : from_ ≠ none → SameSending C P)
    (hs : signBy ≠ none → ∀ c k text st, SignsMessage m text → P.sign c k text st = C.sign c k text st)
    (hu : o.forward = true → P.uuid = C.uuid) (to : Str) :
    packEncrypted (C.replaced P) m to from_ signBy o = packEncrypted C m to from_ signBy o := by
  unfold packEncrypted
  refine then_congr fun _ => prog_congr ?_ fun x => ?_
  · cases signBy with
    | none => simp only [packInner, plaintext_replaced hv]
    | some s => simp only [packInner, signed_replaced hv (hs (by simp))]
  · refine prog_congr ?_ fun y => ?_
    · cases from_ with
      | none => simp only [packCrypt, anoncrypt_replaced h]
      | some f => simp only [packCrypt, authcrypt_replaced h (hf (by simp))]
    · simp only [wrapIfNeeded_replaced h _ _ _ hu]

end DIDComm
