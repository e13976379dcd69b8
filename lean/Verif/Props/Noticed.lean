import Verif.Proofs.NoticedTypes
import Verif.Props.Grammar

/-! # C72, continued: what rules a text out before its end is noticed -/

set_option autoImplicit false

namespace DIDComm

variable {C : Crypto}

/-- C72: let `p` be the beginning of an object, up to the end of a member.  If no text that begins with `p` can be read as an
encrypted envelope, then whatever follows a comma after `p` is `Malformed`, even if the text ends before the object does:
the reader does not wait for the end.  The same for signed envelopes, headers, claims and messages.  Together with
`C72_cut` this says which of the two errors a text gets that ends too early. -/
theorem C72_noticed (f64 : Str → Option Str) (p : Str) (m : List (StrTok × Tree)) (h : JsonText (.obj m) (p ++ b!"}")) (y : Str) :
    ((∀ x a, fromJson dJwe (p ++ x) ≠ .ok a) → fromJson dJwe (p ++ b!"," ++ y) = .error (.kind .malformed)) ∧
    ((∀ x a, fromJson dJws (p ++ x) ≠ .ok a) → fromJson dJws (p ++ b!"," ++ y) = .error (.kind .malformed)) ∧
    ((∀ x a, fromJson dJwsHeader (p ++ x) ≠ .ok a) → fromJson dJwsHeader (p ++ b!"," ++ y) = .error (.kind .malformed)) ∧
    ((∀ x a, fromJson dCompactHeader (p ++ x) ≠ .ok a) → fromJson dCompactHeader (p ++ b!"," ++ y) = .error (.kind .malformed)) ∧
    ((∀ x a, fromJson dFromPrior (p ++ x) ≠ .ok a) → fromJson dFromPrior (p ++ b!"," ++ y) = .error (.kind .malformed)) ∧
    ((∀ x a, fromJson (dJweHeader f64) (p ++ x) ≠ .ok a) → fromJson (dJweHeader f64) (p ++ b!"," ++ y) = .error (.kind .malformed)) ∧
    ((∀ x a, fromJson (dMessage f64) (p ++ x) ≠ .ok a) → fromJson (dMessage f64) (p ++ b!"," ++ y) = .error (.kind .malformed)) :=
  ⟨fun hx => noticed_jwe h hx y, fun hx => noticed_jws h hx y, fun hx => noticed_jwsHeader h hx y, fun hx => noticed_compactHeader h hx y,
    fun hx => noticed_fromPrior h hx y, fun hx => noticed_jweHeader h hx y, fun hx => noticed_message h hx y⟩

/-- C72: if what `unpack` is given begins an object that no envelope and no message begins with, then `unpack` answers `Malformed`
whatever follows and wherever the text ends, and asks nobody. -/
theorem C72_unpack_noticed (p : Str) (m : List (StrTok × Tree)) (h : JsonText (.obj m) (p ++ b!"}"))
    (he : ∀ x a, fromJson dJwe (p ++ x) ≠ .ok a) (hs : ∀ x a, fromJson dJws (p ++ x) ≠ .ok a)
    (hm : ∀ x a, fromJson (dMessage C.f64) (p ++ x) ≠ .ok a) (y : Str)
    (opts : UnpackOptions) (tr : List Event) (r : Res (Message × UnpackMetadata)) (hr : Runs (unpack C (p ++ b!"," ++ y) opts) tr r) :
    tr = [] ∧ r = .error (.kind .malformed) := by
  obtain ⟨h1, h2, -, -, -, -, h3⟩ := C72_noticed C.f64 p m h y
  obtain ⟨rfl, rfl⟩ := unpack_unreadable (.inl rfl) (.inl rfl) (.inl rfl) (h1 he) (h2 hs) (h3 hm) hr
  exact ⟨rfl, rfl⟩

/-- A text that begins an object in which nothing is as it should be. -/
private def odd : Str := b!"{\"id\":1,\"tag\":1,\"payload\":1,\"x\":\"\""

private theorem odd_open : JsonText (.obj [(⟨false, some b!"id"⟩, .num ⟨false, b!"1", []⟩), (⟨false, some b!"tag"⟩, .num ⟨false, b!"1", []⟩),
    (⟨false, some b!"payload"⟩, .num ⟨false, b!"1", []⟩), (⟨false, some b!"x"⟩, .str ⟨false, some []⟩)]) (odd ++ b!"}") :=
  (parseJson_iff _ _).1 (by rfl)

private theorem odd_cut : ∀ t, ¬ JsonText t odd := by
  intro t h
  rw [← parseJson_iff] at h
  have : parseJson odd = .error .eof := by rfl
  rw [this] at h; cases h

example : ∃ tr r, Runs (unpack { Toy.crypto with f64 := fun t => some t } (odd ++ b!"," ++ b!"\"typ") {}) tr r ∧
    (∀ x a, fromJson dJwe (odd ++ x) ≠ .ok a) ∧ (∀ x a, fromJson dJws (odd ++ x) ≠ .ok a) ∧
    (∀ x a, fromJson (dMessage fun t => some t) (odd ++ x) ≠ .ok a) := by
  refine ⟨_, _, (Prog.run_spec World.env id _).1, fun x a h => ?_, fun x a h => ?_, fun x a h => ?_⟩
  · have := (C72_cut odd x odd_cut).1 a h
    rw [show fromJson dJwe odd = .error (.kind .malformed) by rfl] at this
    cases this
  · have := (C72_cut odd x odd_cut).2.1 a h
    rw [show fromJson dJws odd = .error (.kind .malformed) by rfl] at this
    cases this
  · obtain ⟨t, ht, -⟩ := (C72_reads_json _ _ a).1 h
    have := (C72_cut_numbers _ odd x odd_cut t ht fun _ _ _ _ _ _ hk => isNum_all hk).1 a h
    rw [show fromJson (dMessage fun t => some t) odd = .error (.kind .malformed) by rfl] at this
    cases this

end DIDComm
