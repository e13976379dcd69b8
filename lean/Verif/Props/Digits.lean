import Verif.Spec.Digits
import Verif.Proofs.Base64
import Verif.Proofs.Codec

/-!
# C43, C44: base64url and base58btc are what they are said to be
-/

set_option autoImplicit false

namespace DIDComm

/-! ## Digits -/

theorem valueOf_append (base : Nat) (a b : List Nat) : valueOf base (a ++ b) = valueOf base a * base ^ b.length + valueOf base b := by
  induction a with
  | nil => simp [valueOf]
  | cons d a ih =>
    simp only [List.cons_append, valueOf, ih, List.length_append, Nat.pow_add, Nat.add_mul]
    rw [Nat.mul_assoc, Nat.add_assoc]

theorem fromBase_eq_valueOf (base : Nat) (ds : List Nat) : fromBase base ds = valueOf base ds := by
  have key : ∀ (l : List Nat) (a : Nat), l.foldl (fun a d => a * base + d) a = a * base ^ l.length + valueOf base l := by
    intro l
    induction l with
    | nil => intro a; simp [valueOf]
    | cons d l ih =>
      intro a
      rw [List.foldl_cons, ih, valueOf, List.length_cons, Nat.pow_succ, Nat.add_mul, Nat.mul_assoc, Nat.mul_comm base, Nat.add_assoc]
  simpa [fromBase] using key ds 0

theorem valueOf_lt (base : Nat) (hb : 0 < base) : ∀ (ds : List Nat), (∀ d ∈ ds, d < base) → valueOf base ds < base ^ ds.length
  | [], _ => by simp [valueOf]
  | d :: r, h => by
    have h1 := valueOf_lt base hb r (fun x hx => h x (by simp [hx]))
    have h2 : d + 1 ≤ base := h d (by simp)
    have h3 : (d + 1) * base ^ r.length ≤ base * base ^ r.length := Nat.mul_le_mul_right _ h2
    rw [Nat.add_mul] at h3
    simp only [valueOf, List.length_cons, Nat.pow_succ]
    rw [Nat.mul_comm (base ^ r.length) base]
    omega

theorem valueOf_inj (base : Nat) (hb : 0 < base) : ∀ (a b : List Nat), a.length = b.length → (∀ d ∈ a, d < base) → (∀ d ∈ b, d < base) →
    valueOf base a = valueOf base b → a = b
  | [], [], _, _, _, _ => rfl
  | d :: a, e :: b, hl, ha, hb', h => by
    have hl' : a.length = b.length := by simpa using hl
    have h1 := valueOf_lt base hb a (fun x hx => ha x (by simp [hx]))
    have h2 := valueOf_lt base hb b (fun x hx => hb' x (by simp [hx]))
    simp only [valueOf] at h
    rw [hl'] at h h1
    have hpos : 0 < base ^ b.length := Nat.pow_pos hb
    have hq : ∀ (x v : Nat), v < base ^ b.length → (x * base ^ b.length + v) / base ^ b.length = x := by
      intro x v hv
      rw [Nat.mul_comm, Nat.mul_add_div hpos, Nat.div_eq_of_lt hv, Nat.add_zero]
    have hde : d = e := by rw [← hq d _ h1, ← hq e _ h2, h]
    subst hde
    rw [valueOf_inj base hb a b hl' (fun x hx => ha x (by simp [hx])) (fun x hx => hb' x (by simp [hx])) (by omega)]

theorem SpellsDigits.lt {symbols s : Str} {ds : List Nat} (h : SpellsDigits symbols s ds) : ∀ d ∈ ds, d < symbols.length := by
  intro d hd
  have : symbols[d]? ∈ s.map some := by rw [show s.map some = _ from h]; exact List.mem_map.2 ⟨d, hd, rfl⟩
  obtain ⟨c, -, hc⟩ := List.mem_map.1 this
  rcases Nat.lt_or_ge d symbols.length with h | h
  · exact h
  · rw [List.getElem?_eq_none h] at hc; cases hc

theorem SpellsDigits.length {symbols s : Str} {ds : List Nat} (h : SpellsDigits symbols s ds) : s.length = ds.length := by
  simpa using congrArg List.length h

theorem SpellsDigits.text {symbols s s' : Str} {ds : List Nat} (h : SpellsDigits symbols s ds) (h' : SpellsDigits symbols s' ds) : s = s' := by
  have : s.map some = s'.map some := h.trans (Eq.symm h')
  exact List.map_inj_right (fun _ _ => Option.some.inj) |>.1 this

theorem spells_map {symbols : Str} {sym : Nat → UInt8} (ds : List Nat) (h : ∀ d ∈ ds, symbols[d]? = some (sym d)) :
    SpellsDigits symbols (ds.map sym) ds := by
  unfold SpellsDigits
  rw [List.map_map]
  exact (List.map_congr_left (fun d hd => h d hd)).symm

/-! ## base64url -/

/-- The digits of base64url. -/
def digits64 : Bytes → List Nat
  | [] => []
  | [a] => [a.toNat * 16 / 64, a.toNat * 16 % 64]
  | [a, b] => [(a.toNat * 256 + b.toNat) * 4 / 4096, (a.toNat * 256 + b.toNat) * 4 / 64 % 64, (a.toNat * 256 + b.toNat) * 4 % 64]
  | a :: b :: c :: r =>
    ((a.toNat * 256 + b.toNat) * 256 + c.toNat) / 262144 :: ((a.toNat * 256 + b.toNat) * 256 + c.toNat) / 4096 % 64 ::
      ((a.toNat * 256 + b.toNat) * 256 + c.toNat) / 64 % 64 :: ((a.toNat * 256 + b.toNat) * 256 + c.toNat) % 64 :: digits64 r

theorem encode_digits64 : ∀ b, B64.encode b = (digits64 b).map B64.enc6
  | [] => rfl
  | [_] => rfl
  | [_, _] => rfl
  | a :: b :: c :: r => by simp [B64.encode, digits64, encode_digits64 r]

theorem digits64_lt : ∀ b, ∀ d ∈ digits64 b, d < 64
  | [] => by simp [digits64]
  | [a] => by
    have := a.toNat_lt
    simp only [digits64, List.mem_cons, List.not_mem_nil, or_false]
    rintro d (rfl | rfl) <;> omega
  | [a, b] => by
    have := a.toNat_lt
    have := b.toNat_lt
    simp only [digits64, List.mem_cons, List.not_mem_nil, or_false]
    rintro d (rfl | rfl | rfl) <;> omega
  | a :: b :: c :: r => by
    have := a.toNat_lt
    have := b.toNat_lt
    have := c.toNat_lt
    simp only [digits64, List.mem_cons]
    rintro d (rfl | rfl | rfl | rfl | h)
    · omega
    · omega
    · omega
    · omega
    · exact digits64_lt r d h

theorem three_bytes {a b c d0 d1 d2 d3 n : Nat} (hn : (a * 256 + b) * 256 + c = n) (hd : n = ((d0 * 64 + d1) * 64 + d2) * 64 + d3) :
    d0 * 262144 + d1 * 4096 + d2 * 64 + d3 = a * 65536 + b * 256 + c := by
  rw [← hn] at hd
  simp only [Nat.add_mul, Nat.mul_assoc] at hd
  exact hd.symm

theorem digits64_value : ∀ b : Bytes, 8 * b.length ≤ 6 * (digits64 b).length ∧ 6 * (digits64 b).length < 8 * b.length + 6 ∧
    valueOf 64 (digits64 b) = valueOf 256 (b.map UInt8.toNat) * 2 ^ (6 * (digits64 b).length - 8 * b.length)
  | [] => by simp [digits64, valueOf]
  | [a] => by
    simp [digits64, valueOf]
    omega
  | [a, b] => by
    simp [digits64, valueOf]
    omega
  | a :: b :: c :: r => by
    obtain ⟨h1, h2, h3⟩ := digits64_value r
    simp only [digits64, List.length_cons, List.map_cons, valueOf, List.length_map, h3]
    refine ⟨by omega, by omega, ?_⟩
    generalize (digits64 r).length = k at *
    generalize valueOf 256 (r.map UInt8.toNat) = v
    generalize r.length = l at *
    have e : 6 * (k + 1 + 1 + 1 + 1) - 8 * (l + 1 + 1 + 1) = 6 * k - 8 * l := by omega
    rw [e]
    generalize hs : 2 ^ (6 * k - 8 * l) = s
    have hp : 64 ^ k = 256 ^ l * s := by
      rw [← hs, show (64 : Nat) = 2 ^ 6 from rfl, show (256 : Nat) = 2 ^ 8 from rfl, ← Nat.pow_mul, ← Nat.pow_mul, ← Nat.pow_add]
      congr 1
      omega
    simp only [Nat.pow_succ, hp]
    generalize hn : (a.toNat * 256 + b.toNat) * 256 + c.toNat = n
    have hd : n = ((n / 262144 * 64 + n / 4096 % 64) * 64 + n / 64 % 64) * 64 + n % 64 := by omega
    generalize n / 262144 = d0, n / 4096 % 64 = d1, n / 64 % 64 = d2, n % 64 = d3 at *
    generalize 256 ^ l = p
    have hx : (d0 * 262144 + d1 * 4096 + d2 * 64 + d3) = (a.toNat * 65536 + b.toNat * 256 + c.toNat) :=
      three_bytes hn hd
    have ring1 : d0 * (p * s * 64 * 64 * 64) + (d1 * (p * s * 64 * 64) + (d2 * (p * s * 64) + (d3 * (p * s) + v * s))) =
        (d0 * 262144 + d1 * 4096 + d2 * 64 + d3) * (p * s) + v * s := by grind
    have ring2 : (a.toNat * (p * 256 * 256) + (b.toNat * (p * 256) + (c.toNat * p + v))) * s =
        (a.toNat * 65536 + b.toNat * 256 + c.toNat) * (p * s) + v * s := by grind
    rw [ring1, ring2, hx]

set_option maxRecDepth 100000 in
theorem base64Symbols_enc6 : ∀ d, d < 64 → base64Symbols[d]? = some (B64.enc6 d) := by decide +kernel

/-- C43: what is written is base64url, and nothing else is. -/
theorem C43_base64url (b : Bytes) (s : Str) : s = B64.encode b ↔ IsBase64 b s := by
  obtain ⟨h1, h2, h3⟩ := digits64_value b
  have hs : SpellsDigits base64Symbols (B64.encode b) (digits64 b) := by
    rw [encode_digits64]
    exact spells_map _ (fun d hd => base64Symbols_enc6 d (digits64_lt b d hd))
  constructor
  · rintro rfl
    exact ⟨digits64 b, hs, h1, h2, h3⟩
  · rintro ⟨ds, g0, g1, g2, g3⟩
    have hl : ds.length = (digits64 b).length := by omega
    have : ds = digits64 b := by
      refine valueOf_inj 64 (by decide) _ _ hl (fun d hd => g0.lt d hd) (digits64_lt b) ?_
      rw [g3, h3, hl]
    subst this
    exact g0.text hs

/-- The vectors of RFC 4648. -/
example : IsBase64 b!"foobar" b!"Zm9vYmFy" ∧ IsBase64 b!"fooba" b!"Zm9vYmE" ∧ IsBase64 b!"foob" b!"Zm9vYg" ∧ IsBase64 b!"" b!"" := by
  simp only [← C43_base64url]
  decide

/-! ## base58btc -/

set_option maxRecDepth 100000 in
theorem base58Symbols_sym : ∀ d, d < 58 → base58Symbols[d]? = some (b58Sym d) := by decide +kernel

/-- C44: the texts that are accepted as base58btc are base58btc, and stand for the bytes they should. -/
theorem C44_base58btc (b : Bytes) (s : Str) : b58Decode s = some b ↔ IsBase58 b s := by
  have key : s = b58Encode b ↔ IsBase58 b s := by
    obtain ⟨hb, hh⟩ := leading_split (0 : UInt8) b
    have hv : fromBase 256 (b.map UInt8.toNat) = fromBase 256 ((b.drop (leading 0 b)).map UInt8.toNat) := by
      conv => lhs; rw [hb]
      rw [List.map_append, List.map_replicate]
      exact fromBase_zeros 256 _ _
    have hs : SpellsDigits base58Symbols (b58Encode b) (List.replicate (leading 0 b) 0 ++ toBase 58 (fromBase 256 (b.map UInt8.toNat))) := by
      have : b58Encode b = (List.replicate (leading 0 b) 0 ++ toBase 58 (fromBase 256 (b.map UInt8.toNat))).map b58Sym := by
        rw [List.map_append, List.map_replicate]; rfl
      rw [this]
      refine spells_map _ (fun d hd => base58Symbols_sym d ?_)
      rcases List.mem_append.1 hd with h | h
      · rw [(List.mem_replicate.1 h).2]; decide
      · exact toBase_lt 58 (by decide) _ d h
    constructor
    · rintro rfl
      refine ⟨_, _, _, hs, hb, toBase_head 58 (by decide) _, hh, ?_⟩
      rw [← fromBase_eq_valueOf, ← fromBase_eq_valueOf, ← hv, fromBase_toBase 58 (by decide)]
    · rintro ⟨z, ds, c, g1, rfl, g2, g3, g4⟩
      rw [leading_replicate _ _ _ g3] at hs hv
      rw [← fromBase_eq_valueOf, ← fromBase_eq_valueOf] at g4
      rw [hv, List.drop_left' (by simp), ← g4, toBase_fromBase 58 (by decide) ds ?_ g2] at hs
      · exact g1.text hs
      · intro d hd
        exact g1.lt d (List.mem_append_right _ hd)
  rw [← key]
  exact ⟨fun h => (b58_encode_decode h).symm, fun h => by rw [h, b58_decode_encode]⟩

/-- The key of a `did:key` of the specification, and a text with leading zeros. -/
example : IsBase58 [0, 0, 1, 2, 3] b!"11Ldp" ∧ (∀ b, ¬ IsBase58 b b!"0OIl") ∧ IsBase58 b!"Hello World!" b!"2NEpo7TZRRrLZSi2U" := by
  simp only [← C44_base58btc]
  refine ⟨by decide +kernel, fun b => ?_, by decide +kernel⟩
  rw [show b58Decode b!"0OIl" = none by decide +kernel]
  simp

end DIDComm
