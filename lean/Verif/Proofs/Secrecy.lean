import Verif.Spec.Secrecy
import Verif.Spec.Env
import Verif.Proofs.Inv
import Verif.Proofs.Evidence
import Verif.Proofs.Gives

/-! # Two runs; the outermost layer of a text -/

set_option autoImplicit false

namespace DIDComm

variable {C : Crypto}

@[simp] theorem draws_append (a b : List Event) : draws (a ++ b) = draws a ++ draws b := by
  induction a with
  | nil => rfl
  | cons e a ih =>
    obtain ⟨q, x⟩ := e
    cases q with
    | random => exact congrArg (List.cons (show Nat from x)) ih
    | _ => exact ih

@[simp] theorem draws_nil : draws [] = [] := rfl
@[simp] theorem draws_resolve (d : Str) (x : Option DIDDoc) (r : List Event) : draws (evResolve d x :: r) = draws r := rfl
@[simp] theorem draws_find (ks : List Str) (x : List Str) (r : List Event) : draws (evFind ks x :: r) = draws r := rfl
@[simp] theorem draws_get (k : Str) (x : Option Secret) (r : List Event) : draws (evGet k x :: r) = draws r := rfl
@[simp] theorem draws_random (n : Nat) (r : List Event) : draws (evRandom n :: r) = n :: draws r := rfl

/-- The same program with the same resolvers and the same draws does the same. -/
theorem runs_det {α : Type} {E : Env} {p : Prog α} {tr tr' : List Event} {r r' : Res α} {a b : List Nat}
    (h : Runs p tr r) (h' : Runs p tr' r') (he : Answers E tr) (he' : Answers E tr')
    (hd : draws tr ++ a = draws tr' ++ b) : tr = tr' ∧ r = r' ∧ a = b := by
  induction h generalizing tr' r' with
  | ret r => cases h'; exact ⟨rfl, rfl, hd⟩
  | ask q k x tr r h ih =>
    cases h' with
    | ask _ _ x' tr' _ h' =>
      have hx := he ⟨q, x⟩ (by simp)
      have hx' := he' ⟨q, x'⟩ (by simp)
      have e : Answers E tr := fun ev h => he ev (by simp [h])
      have e' : Answers E tr' := fun ev h => he' ev (by simp [h])
      have : x = x' ∧ draws tr ++ a = draws tr' ++ b := by
        cases q with
        | resolve d => exact ⟨Eq.trans hx (Eq.symm hx'), hd⟩
        | findSecrets d => exact ⟨Eq.trans hx (Eq.symm hx'), hd⟩
        | getSecret d => exact ⟨Eq.trans hx (Eq.symm hx'), hd⟩
        | random => exact ⟨(List.cons.inj hd).1, (List.cons.inj hd).2⟩
      obtain ⟨rfl, hd'⟩ := this
      obtain ⟨rfl, rfl, rfl⟩ := ih h' e e' hd'
      exact ⟨rfl, rfl, rfl⟩

theorem draws_fromPrior {jwt : Str} {tr : List Event} {x : FromPrior × Str}
    (h : Runs (FromPrior.unpack C jwt) tr (.ok x)) : draws tr = [] := by
  obtain ⟨fp, kid⟩ := x
  obtain ⟨_, _, _, _, _, _, -, -, -, -, rfl, -⟩ := FromPrior.unpack_ok.1 h
  rfl

theorem draws_plaintext {m : Message} {tr : List Event} {out : Str} (h : Runs (packPlaintext C m) tr (.ok out)) :
    draws tr = [] ∧ out = m.toJson.print := by
  obtain ⟨fp, h', -, rfl⟩ := packPlaintext_ok.1 h
  clear h
  refine ⟨?_, rfl⟩
  unfold unpackFromPrior at h'
  split at h'
  rotate_left
  · rw [runs_bind_ok] at h'
    obtain ⟨x, t1, t2, rfl, h1, h2⟩ := h'
    rw [draws_append, draws_fromPrior h1, (runs_pure.1 h2).1]
    rfl
  · rw [(runs_pure.1 h').1]; rfl

theorem draws_inner {m : Message} {signBy : Option Str} {tr : List Event} {out : Str} {k : Option Str}
    (h : Runs (packInner C m signBy) tr (.ok (out, k))) : draws tr = [] ∧ InnerText m signBy out := by
  rcases packInner_ok.1 h with ⟨rfl, -, h⟩ | ⟨s, k, rfl, -, h⟩
  · exact draws_plaintext h
  · obtain ⟨doc, kids, found, secret, pair, tr', payload, alg, -, rfl, -, -, -, h1, -, h2⟩ := packSigned_ok.1 h
    obtain ⟨h3, rfl⟩ := draws_plaintext h1
    obtain ⟨_, sig, -, -, rfl⟩ := jwsSign_ok.1 h2
    exact ⟨by simpa using h3, _, k, sig, rfl⟩

/-- Encrypting two texts with the same encryptions is the same. -/
theorem jweEncrypt_congr {t t' : Bytes} (h : ∀ ce k iv aad, C.aeadEnc ce k iv aad t = C.aeadEnc ce k iv aad t')
    {ce : ContentEnc} {kdf : Kdf} {curve : Curve} {alg : JweAlg} {enc : EncAlg}
    {sender : Option (Str × C.Key)} {rcps : List (Str × C.Key)} :
    jweEncrypt C ce kdf curve t alg enc sender rcps = jweEncrypt C ce kdf curve t' alg enc sender rcps := by
  unfold jweEncrypt
  simp only [h]

theorem packCrypt_congr {t t' : Bytes} (h : ∀ ce k iv aad, C.aeadEnc ce k iv aad t = C.aeadEnc ce k iv aad t')
    {to : Str} {from_ : Option Str} {opts : PackEncryptedOptions} :
    packCrypt C to from_ t opts = packCrypt C to from_ t' opts := by
  unfold packCrypt authcrypt anoncrypt
  simp only [jweEncrypt_congr h]

/-! ## What encryption makes -/

theorem wrapAll_seals {kdf : Kdf} {curve : Curve} {epk : C.Key} {skey : Option C.Key} {alg apu apv tag cek : Bytes}
    {l : List (Str × C.Key)} {rs : List JweRecipient} (h : wrapAll C kdf curve epk skey alg apu apv tag cek l = .ok rs) :
    ∀ r ∈ rs, ∃ kw ek, C.wrap kw cek = some ek ∧ B64.decode r.encryptedKey = some ek := by
  induction l generalizing rs with
  | nil => cases h; simp
  | cons p l ih =>
    obtain ⟨kid, key⟩ := p
    simp only [wrapAll, res_bind_ok, okOr_eq_ok, Except.ok.injEq] at h
    obtain ⟨kw, -, ek, h2, l, hl, rfl⟩ := h
    intro r hr
    rcases List.mem_cons.1 hr with rfl | hr
    · exact ⟨kw, ek, h2, B64.decode_encode _⟩
    · exact ih hl r hr

/-- The envelope, the header, the freshness of content key and ephemeral key. -/
theorem jweEncrypt_seals {ce : ContentEnc} {kdf : Kdf} {curve : Curve} {pt : Bytes} {alg : JweAlg} {enc : EncAlg}
    {sender : Option (Str × C.Key)} {rcps : List (Str × C.Key)} {tr : List Event} {out : Str}
    (h : Runs (jweEncrypt C ce kdf curve pt alg enc sender rcps) tr (.ok out)) :
    ∃ j s, out = j.toJson.print ∧ Seals C s j ∧ s.content = pt ∧
      (∃ n, evRandom n ∈ tr ∧ C.genCek ce n = some s.cek) := by
  obtain ⟨r1, r2, r3, cek, epk, jwk, ct, tag, rs, rfl, h1, h2, h3, h4, h5, rfl⟩ := jweEncrypt_ok.1 h
  exact ⟨_, ⟨cek, C.genNonce ce r3, jweProtected C alg enc (sender.map Prod.fst) (rcps.map Prod.fst) jwk, pt, ct ++ tag⟩,
    rfl, ⟨ce, ct, tag, h4, rfl, rfl, B64.decode_encode _, B64.decode_encode _, B64.decode_encode _, wrapAll_seals h5⟩,
    rfl, r1, by simp, h1⟩

/-! ## The outermost layer -/

/-- An accepted encrypted text: its outermost layer was opened. -/
theorem outer_layer {t : Str} {opts : UnpackOptions} {tr : List Event} {m : Message} {md : UnpackMetadata}
    (h : Runs (unpack C t opts) tr (.ok (m, md))) (he : md.encrypted = true) :
    ∃ payload, Holds C payload m ∧
      ((∃ kids alg c kid rkey, AnonOpens C t kids alg c kid rkey payload) ∨
       (∃ kids fk c skey kid rkey, AuthOpens C t kids fk c skey kid rkey payload)) := by
  obtain ⟨t1, t2, t3, t4, msg1, md1, msg2, md2, msg3, md3, rfl, h1, h2, h3, h4, h5, h6⟩ := unpack_parts h
  have hw : Holds C msg2 m := by
    refine ⟨msg3, ?_, h4⟩
    rcases h3 with ⟨rfl, -, -⟩ | ⟨_, _, _, _, _, hs, -⟩
    · exact .here _
    · exact .signed hs (.here _)
  have hw1 : Holds C msg1 m := by
    rcases h2 with ⟨rfl, -, -⟩ | ⟨kids, fromKid, doc, c, skey, kid, secret, rkey, a1, -⟩
    · exact hw
    · obtain ⟨u, a, b⟩ := hw
      exact ⟨u, .auth a1.1 a1.2 a, b⟩
  cases h1 with
  | stop hs =>
    rcases h2 with ⟨-, rfl, -⟩ | ⟨kids, fromKid, doc, c, skey, kid, secret, rkey, a1, -⟩
    · exfalso
      have e6 : md.encrypted = md3.encrypted := by
        rcases h6 with ⟨-, -, rfl⟩ | ⟨_, _, _, _, _, _, -, -, -, -, -, rfl⟩ <;> rfl
      have e3 : md3.encrypted = false := by
        rcases h3 with ⟨-, rfl, -⟩ | ⟨_, _, _, _, _, -, -, -, -, rfl⟩ <;> rfl
      rw [e6, e3] at he
      cases he
    · exact ⟨msg2, hw, .inr ⟨kids, fromKid, c, skey, kid, rkey, a1.1⟩⟩
  | last ha _ =>
    obtain ⟨kids, alg, kid, secret, key, ha, -⟩ := anon_layer ha
    exact ⟨_, hw1, .inl ⟨kids, alg, _, kid, _, ha⟩⟩
  | again ha _ hf hu =>
    obtain ⟨kids, alg, kid, secret, key, ha, -⟩ := anon_layer ha
    obtain ⟨f, next, v, e1, e2, rfl, -⟩ := forwarded_layer hf
    obtain ⟨u, a, b⟩ := hw1
    exact ⟨_, ⟨u, .forward e1 e2 (hu.within.trans a), b⟩, .inl ⟨kids, alg, _, kid, _, ha⟩⟩

/-- How it was opened. -/
theorem opened {t : Str} {j : JWE} {payload : Bytes} (ht : fromJson dJwe t = .ok j)
    (h : (∃ kids alg c kid rkey, AnonOpens C t kids alg c kid rkey payload) ∨
       (∃ kids fk c skey kid rkey, AuthOpens C t kids fk c skey kid rkey payload)) :
    ∃ ce kid kw tag, OpensWith C j ce kid kw tag payload := by
  rcases h with ⟨kids, alg, c, kid, rkey, j', hdr, apv, ce, epk, kw, tag, h, -, -, -, -, -, -, -, ho⟩ |
    ⟨kids, fk, c, skey, kid, rkey, j', hdr, apv, epk, kw, tag, h, -, -, -, -, -, -, -, ho⟩
  · have := h.text
    rw [ht] at this
    cases this
    exact ⟨ce, kid, kw, tag, ho⟩
  · have := h.text
    rw [ht] at this
    cases this
    exact ⟨_, kid, kw, tag, ho⟩

end DIDComm
