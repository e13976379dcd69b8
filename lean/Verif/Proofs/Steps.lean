import Verif.Model.Unpack
import Verif.Proofs.Runs

/-! # Equations for the stages of unpacking -/

set_option autoImplicit false

namespace DIDComm

variable {C : Crypto}

theorem lift_ok_bind {α β : Type} {x : Res α} {a : α} {f : α → Prog β} (h : x = .ok a) : (Prog.lift x >>= f) = f a := by
  subst h; rfl

theorem lift_error_bind {α β : Type} {x : Res α} {e : Err} {f : α → Prog β} (h : x = .error e) :
    (Prog.lift x >>= f) = .ret (.error e) := by
  subst h; rfl

theorem ret_error_bind {α β : Type} {e : Err} {f : α → Prog β} : ((.ret (.error e) : Prog α) >>= f) = .ret (.error e) := rfl

theorem fail_bind {α β : Type} {k : ErrorKind} {f : α → Prog β} :
    ((Prog.fail k : Prog α) >>= f) = .ret (.error (.kind k)) := rfl

theorem pure_bind' {α β : Type} {a : α} {f : α → Prog β} : ((pure a : Prog α) >>= f) = f a := rfl

theorem lift_okOr_some {α β : Type} {k : ErrorKind} {a : α} {f : α → Prog β} :
    (Prog.lift (okOr k (some a)) >>= f) = f a := rfl

theorem prog_assoc {α β γ : Type} (p : Prog α) (f : α → Prog β) (g : β → Prog γ) :
    ((p >>= f) >>= g) = (p >>= fun x => f x >>= g) := by
  change (p.bind f).bind g = p.bind fun x => (f x).bind g
  induction p with
  | ret r => cases r <;> rfl
  | ask q k ih => simp only [Prog.bind]; congr 1; funext a; exact ih a

variable {t : Str} {opts : UnpackOptions} {md : UnpackMetadata}

theorem tryAnon_not_jwe (h : jweFromStr t = .error (.kind .malformed)) :
    tryUnpackAnoncrypt C t opts md = pure (none, md) := by
  unfold tryUnpackAnoncrypt; rw [lift_ok_bind (a := none) (by rw [h]; rfl)]

theorem tryAuth_not_jwe (h : jweFromStr t = .error (.kind .malformed)) :
    tryUnpackAuthcrypt C t opts md = pure (none, md) := by
  unfold tryUnpackAuthcrypt; rw [lift_ok_bind (a := none) (by rw [h]; rfl)]

theorem tryAnon_parse_error {j : JWE} {e : Err} (h : jweFromStr t = .ok j) (hp : j.parse C = .error e) :
    tryUnpackAnoncrypt C t opts md = .ret (.error e) := by
  unfold tryUnpackAnoncrypt; rw [lift_ok_bind (a := some j) (by rw [h]; rfl)]
  simp only [lift_error_bind hp]

theorem tryAnon_other {j : JWE} {p : ParsedJWE} (h : jweFromStr t = .ok j) (hp : j.parse C = .ok p)
    (ha : p.protected_.alg ≠ .ecdhEs) : tryUnpackAnoncrypt C t opts md = pure (none, md) := by
  unfold tryUnpackAnoncrypt; rw [lift_ok_bind (a := some j) (by rw [h]; rfl)]
  simp only [lift_ok_bind hp, if_pos ha]

theorem tryAuth_other {j : JWE} {p : ParsedJWE} (h : jweFromStr t = .ok j) (hp : j.parse C = .ok p)
    (ha : p.protected_.alg ≠ .ecdh1pu) : tryUnpackAuthcrypt C t opts md = pure (none, md) := by
  unfold tryUnpackAuthcrypt; rw [lift_ok_bind (a := some j) (by rw [h]; rfl)]
  simp only [lift_ok_bind hp, if_pos ha]

theorem tryAnon_verify_error {j : JWE} {p : ParsedJWE} {e : Err} (h : jweFromStr t = .ok j) (hp : j.parse C = .ok p)
    (ha : p.protected_.alg = .ecdhEs) (hv : p.verifyDidcomm C = .error e) :
    tryUnpackAnoncrypt C t opts md = .ret (.error e) := by
  unfold tryUnpackAnoncrypt; rw [lift_ok_bind (a := some j) (by rw [h]; rfl)]
  simp only [lift_ok_bind hp, ha, ne_eq, not_true, if_false, lift_error_bind hv]

theorem tryAuth_verify_error {j : JWE} {p : ParsedJWE} {e : Err} (h : jweFromStr t = .ok j) (hp : j.parse C = .ok p)
    (ha : p.protected_.alg = .ecdh1pu) (hv : p.verifyDidcomm C = .error e) :
    tryUnpackAuthcrypt C t opts md = .ret (.error e) := by
  unfold tryUnpackAuthcrypt; rw [lift_ok_bind (a := some j) (by rw [h]; rfl)]
  simp only [lift_ok_bind hp, ha, ne_eq, not_true, if_false, lift_error_bind hv]

/-- The part of unpacking after the anoncrypt loop. -/
def afterAnon (C : Crypto) (opts : UnpackOptions) (msg : Str) (md : UnpackMetadata) : Prog (Message × UnpackMetadata) := do
  let (auth, md) ← tryUnpackAuthcrypt C msg opts md
  let msg := auth.getD msg
  let (signed, md) ← tryUnpackSign C msg md
  let msg := signed.getD msg
  let (m, md) ← tryUnpackPlaintext C msg md
  let m ← Prog.lift (okOr .malformed m)
  pure (m, md)

/-- The part of unpacking after the authcrypt step. -/
def afterAuth (C : Crypto) (msg : Str) (md : UnpackMetadata) : Prog (Message × UnpackMetadata) := do
  let (signed, md) ← tryUnpackSign C msg md
  let msg := signed.getD msg
  let (m, md) ← tryUnpackPlaintext C msg md
  let m ← Prog.lift (okOr .malformed m)
  pure (m, md)

/-- The part of unpacking after the signature step. -/
def afterSign (C : Crypto) (msg : Str) (md : UnpackMetadata) : Prog (Message × UnpackMetadata) := do
  let (m, md) ← tryUnpackPlaintext C msg md
  let m ← Prog.lift (okOr .malformed m)
  pure (m, md)

theorem unpack_eq : unpack C t opts = unwrapLoop C opts (t.length + 1) t {} >>= fun x => afterAnon C opts x.1 x.2 := rfl

theorem afterAnon_eq : afterAnon C opts t md =
    tryUnpackAuthcrypt C t opts md >>= fun x => afterAuth C (x.1.getD t) x.2 := rfl

theorem afterAuth_eq : afterAuth C t md = tryUnpackSign C t md >>= fun x => afterSign C (x.1.getD t) x.2 := rfl

theorem unwrapLoop_skip {n : Nat} (h : tryUnpackAnoncrypt C t opts md = pure (none, md)) :
    unwrapLoop C opts (n + 1) t md = pure (t, md) := by
  simp only [unwrapLoop, h]; rfl

theorem unwrapLoop_error {n : Nat} {e : Err} (h : tryUnpackAnoncrypt C t opts md = .ret (.error e)) :
    unwrapLoop C opts (n + 1) t md = .ret (.error e) := by
  simp only [unwrapLoop, h]; rfl

/-- A text that is not anoncrypted goes to the authcrypt step at once. -/
theorem unpack_skip_anon (h : tryUnpackAnoncrypt C t opts {} = pure (none, {})) :
    unpack C t opts = afterAnon C opts t {} := by
  rw [unpack_eq, unwrapLoop_skip h]; rfl

theorem unpack_anon_error {e : Err} (h : tryUnpackAnoncrypt C t opts {} = .ret (.error e)) :
    unpack C t opts = .ret (.error e) := by
  rw [unpack_eq, unwrapLoop_error h]; rfl

/-- A text that is not an encrypted envelope goes to the signature step at once. -/
theorem unpack_not_jwe (h : jweFromStr t = .error (.kind .malformed)) : unpack C t opts = afterAuth C t {} := by
  rw [unpack_skip_anon (tryAnon_not_jwe h), afterAnon_eq, tryAuth_not_jwe h]; rfl

theorem trySign_not_jws (h : jwsFromStr t = .error (.kind .malformed)) : tryUnpackSign C t md = pure (none, md) := by
  unfold tryUnpackSign; rw [lift_ok_bind (a := none) (by rw [h]; rfl)]

/-- A text that is neither an encrypted nor a signed envelope is read as plaintext. -/
theorem unpack_plain (h : jweFromStr t = .error (.kind .malformed)) (h2 : jwsFromStr t = .error (.kind .malformed)) :
    unpack C t opts = afterSign C t {} := by
  rw [unpack_not_jwe h, afterAuth_eq, trySign_not_jws h2]; rfl

end DIDComm
