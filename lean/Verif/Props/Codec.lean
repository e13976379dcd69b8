import Verif.Spec.Codec
import Verif.Spec.Toy
import Verif.Model.Did
import Verif.Proofs.Codec
import Verif.Proofs.Base64
import Verif.Proofs.Runs

/-! # C43-C47: encodings, DID strings, key material -/

set_option autoImplicit false

namespace DIDComm

/-! ## C43: base64url -/

/-- C43: decoding inverts encoding. -/
theorem C43_decode_encode (b : Bytes) : B64.decode (B64.encode b) = some b := B64.decode_encode b

/-- C43: the encoding uses only `A-Z a-z 0-9 - _`, in particular no padding. -/
theorem C43_alphabet (b : Bytes) : ∀ c ∈ B64.encode b,
    (65 ≤ c.toNat ∧ c.toNat ≤ 90) ∨ (97 ≤ c.toNat ∧ c.toNat ≤ 122) ∨ (48 ≤ c.toNat ∧ c.toNat ≤ 57)
      ∨ c.toNat = 45 ∨ c.toNat = 95 := by
  intro c hc
  have h := B64.encode_sym b c hc
  unfold B64.isSym B64.dec6 at h
  simp only at h
  split at h
  · exact .inl ‹_›
  · split at h
    · exact .inr (.inl ‹_›)
    · split at h
      · exact .inr (.inr (.inl ‹_›))
      · split at h
        · exact .inr (.inr (.inr (.inl ‹_›)))
        · split at h
          · exact .inr (.inr (.inr (.inr ‹_›)))
          · simp at h

/-- C43: a decodable text is the encoding of its value, up to one or two `=` that fill it
to a multiple of four. -/
theorem C43_canonical {s : Str} {b : Bytes} (h : B64.decode s = some b) :
    s = B64.encode b ∨ s = B64.encode b ++ [61] ∨ s = B64.encode b ++ [61, 61] := by
  obtain ⟨pad, rfl, hp | hp | hp⟩ := B64.decode_some h
  · exact .inl (by simp [hp])
  · exact .inr (.inl (by simp [hp]))
  · exact .inr (.inr (by simp [hp]))

/-- C43: exactly these texts decode to `b`: its encoding, and the same with the `=` that fill it to a multiple of four, of
which the last may be missing. -/
theorem C43_exact (s : Str) (b : Bytes) : B64.decode s = some b ↔
    s = B64.encode b ∨ (s = B64.encode b ++ [61] ∧ b.length % 3 ≠ 0) ∨ (s = B64.encode b ++ [61, 61] ∧ b.length % 3 = 1) := by
  constructor
  · exact B64.decode_pad_some
  · rintro (rfl | ⟨rfl, h⟩ | ⟨rfl, h⟩)
    · exact C43_decode_encode b
    · exact (B64.decode_encode_pad b h).1
    · exact (B64.decode_encode_pad b (by omega)).2 h

/-- The paddings of one and of two bytes. -/
example : B64.decode b!"_w==" = some [0xFF] ∧ B64.decode b!"_w=" = some [0xFF] ∧ B64.decode b!"__4=" = some [0xFF, 0xFE]
    ∧ B64.decode b!"__4==" = none ∧ B64.decode b!"____=" = none := by decide

/-- C43: two different byte strings have different encodings, and the value of a text is
unique, so two unpadded texts with the same value are equal. -/
theorem C43_unpadded_unique {s t : Str} {b : Bytes} (hs : B64.decode s = some b) (ht : B64.decode t = some b)
    (ns : 61 ∉ s) (nt : 61 ∉ t) : s = t := by
  have key : ∀ {u : Str}, B64.decode u = some b → 61 ∉ u → u = B64.encode b := by
    intro u hu nu
    rcases C43_canonical hu with h | h | h
    · exact h
    · exact absurd (by simp [h]) nu
    · exact absurd (by simp [h]) nu
  rw [key hs ns, key ht nt]

/-- RFC 4648 vectors, and the accepted padding. -/
example : B64.encode b!"foobar" = b!"Zm9vYmFy" ∧ B64.encode b!"fooba" = b!"Zm9vYmE"
    ∧ B64.encode [0xFF, 0xFE] = b!"__4" ∧ B64.decode b!"__4=" = some [0xFF, 0xFE]
    ∧ B64.decode b!"__5" = none := by decide

/-! ## C46: DID strings -/

theorem splitOnce_none {c : UInt8} {s : Str} (h : c ∉ s) : splitOnce c s = none := by
  induction s with
  | nil => rfl
  | cons b r ih =>
    have h1 : ¬ b = c := fun e => h (by simp [e])
    simp [splitOnce, h1, ih (fun hc => h (by simp [hc]))]

theorem splitOnce_some {c : UInt8} {d f : Str} (h : c ∉ d) : splitOnce c (d ++ c :: f) = some (d, f) := by
  induction d with
  | nil => simp [splitOnce]
  | cons b r ih =>
    have h1 : ¬ b = c := fun e => h (by simp [e])
    simp [splitOnce, h1, ih (fun hc => h (by simp [hc]))]

/-- C46: without `#` the whole text is the DID and there is no key id. -/
theorem C46_no_fragment (s : Str) (h : 0x23 ∉ s) : didOrUrl s = (s, none) := by
  simp [didOrUrl, splitOnce_none h]

/-- C46: with a `#` the part before the first one is the DID, and the key id is the whole
text. -/
theorem C46_fragment (did fragment : Str) (h : 0x23 ∉ did) :
    didOrUrl (did ++ b!"#" ++ fragment) = (did, some (did ++ b!"#" ++ fragment)) := by
  simp [didOrUrl, splitOnce_some h]

/-- C46: these two cases cover every text. -/
theorem C46_cases (s : Str) : 0x23 ∉ s ∨ ∃ did fragment : Str, 0x23 ∉ did ∧ s = did ++ b!"#" ++ fragment := by
  induction s with
  | nil => exact .inl (by simp)
  | cons b r ih =>
    by_cases hb : b = 0x23
    · exact .inr ⟨[], r, by simp, by simp [hb]⟩
    · rcases ih with h | ⟨d, f, h, rfl⟩
      · exact .inl (by simp [h, Ne.symm hb])
      · exact .inr ⟨b :: d, f, by simp [h, Ne.symm hb], by simp⟩

theorem splitOn_ne_nil (c : UInt8) (s : Str) : splitOn c s ≠ [] := by
  cases s with
  | nil => simp [splitOn]
  | cons b r =>
    simp only [splitOn]
    split
    · simp
    · split <;> simp

theorem splitOn_free {c : UInt8} {s : Str} (h : c ∉ s) : splitOn c s = [s] := by
  induction s with
  | nil => rfl
  | cons b r ih =>
    have h1 : ¬ b = c := fun e => h (by simp [e])
    simp [splitOn, h1, ih (fun hc => h (by simp [hc]))]

theorem splitOn_append {c : UInt8} {d f : Str} (h : c ∉ d) : splitOn c (d ++ c :: f) = d :: splitOn c f := by
  induction d with
  | nil => simp [splitOn]
  | cons b r ih =>
    have h1 : ¬ b = c := fun e => h (by simp [e])
    simp [splitOn, h1, ih (fun hc => h (by simp [hc]))]

theorem first_sep (c : UInt8) (s : Str) : c ∉ s ∨ ∃ d f : Str, c ∉ d ∧ s = d ++ c :: f := by
  induction s with
  | nil => exact .inl (by simp)
  | cons b r ih =>
    by_cases hb : b = c
    · exact .inr ⟨[], r, by simp, by simp [hb]⟩
    · rcases ih with h | ⟨d, f, h, rfl⟩
      · exact .inl (by simp [h, Ne.symm hb])
      · exact .inr ⟨b :: d, f, by simp [h, Ne.symm hb], by simp⟩

/-- C46: `is_did` holds exactly for `did:…:…`. -/
theorem C46_is_did (s : Str) : isDid s = true ↔ LooksLikeDid s := by
  unfold LooksLikeDid
  constructor
  · intro h
    rcases first_sep 0x3A s with h1 | ⟨d, f, h1, rfl⟩
    · simp [isDid, splitOn_free h1] at h
    · rcases first_sep 0x3A f with h2 | ⟨m, i, h2, rfl⟩
      · simp [isDid, splitOn_append h1, splitOn_free h2] at h
      · simp only [isDid, splitOn_append h1, List.head?_cons, Bool.and_eq_true, beq_iff_eq,
          Option.some.injEq] at h
        obtain ⟨-, rfl⟩ := h
        exact ⟨m, i, by simp⟩
  · rintro ⟨m, i, rfl⟩
    have h0 : splitOn 0x3A (b!"did:" ++ m ++ b!":" ++ i) = b!"did" :: splitOn 0x3A (m ++ 0x3A :: i) := by
      have := splitOn_append (c := 0x3A) (d := b!"did") (f := m ++ 0x3A :: i) (by decide)
      rw [← this]; simp
    have h1 : 2 ≤ (splitOn 0x3A (m ++ 0x3A :: i)).length := by
      rcases first_sep 0x3A m with h1 | ⟨a, b, h1, rfl⟩
      · rw [splitOn_append h1]
        have := splitOn_ne_nil 0x3A i
        have := List.length_pos_iff.2 this
        simp only [List.length_cons]; omega
      · rw [List.append_assoc, List.cons_append, splitOn_append h1]
        have := splitOn_ne_nil 0x3A (b ++ 0x3A :: i)
        have := List.length_pos_iff.2 this
        simp only [List.length_cons]; omega
    simp only [isDid, h0, List.length_cons, List.head?_cons, Bool.and_eq_true, decide_eq_true_eq, beq_iff_eq]
    exact ⟨by omega, trivial⟩

example : didOrUrl b!"did:example:alice#key#1" = (b!"did:example:alice", some b!"did:example:alice#key#1") := by
  decide
example : isDid b!"did:example:alice#k" = true ∧ isDid b!"did:x" = false ∧ isDid b!"DID:a:b" = false := by decide
example : LooksLikeDid b!"did:a:b" := ⟨b!"a", b!"b", rfl⟩

/-! ## C44: multibase -/

/-- C44: the multibase text of any key bytes decodes to exactly these bytes, for the
codec the method type asks for. -/
theorem C44_decodes (c : Codec) (key : Bytes) : fromMultibase c (multibaseOf c key) = .ok key := by
  unfold multibaseOf fromMultibase
  simp only [List.cons_append, List.nil_append, bs58, b58_decode_encode]
  cases c <;> simp [okOr, fromMulticodec, bind, Except.bind, Codec.prefixBytes, readVarint, readVarintAux,
    codecByPrefix, writeVarint, writeVarintAux, show ¬ (key.length + 1 + 1 < 2) by omega]

/-- C44: a key with another codec is rejected with `IllegalArgument`. -/
theorem C44_wrong_codec (want c : Codec) (key : Bytes) (h : c ≠ want) :
    fromMultibase want (multibaseOf c key) = .error (.kind .illegalArgument) := by
  unfold multibaseOf fromMultibase
  simp only [List.cons_append, List.nil_append, bs58, b58_decode_encode]
  cases c <;> simp [okOr, fromMulticodec, bind, Except.bind, Codec.prefixBytes, readVarint, readVarintAux,
    codecByPrefix, writeVarint, writeVarintAux, h, fail, show ¬ (key.length + 1 + 1 < 2) by omega]

/-- C44: a text that does not start with `z` is rejected with `IllegalArgument`. -/
theorem C44_not_base58btc (want : Codec) (s : Str) (h : s.head? ≠ some 0x7A) :
    fromMultibase want s = .error (.kind .illegalArgument) := by
  unfold fromMultibase
  split
  · simp at h
  · rfl

/-- What decoding the codec prefix gives. -/
theorem fromMulticodec_ok {value : Bytes} {c : Codec} {v : Bytes} (h : fromMulticodec value = .ok (c, v)) :
    ∃ a b r, value = a :: b :: r ∧ v = r ∧
      (b.toNat < 128 → a :: b :: [] = c.prefixBytes) := by
  unfold fromMulticodec at h
  obtain ⟨p, hp, h⟩ := res_bind_ok.1 h
  obtain ⟨codec, hc, h⟩ := res_bind_ok.1 h
  rw [okOr_eq_ok] at hp
  have hw : (writeVarint p).length = 2 ∧ 128 ≤ p := by
    unfold codecByPrefix at hc
    split at hc
    · rename_i e; subst e; exact ⟨by decide, by decide⟩
    · split at hc
      · rename_i e; subst e; exact ⟨by decide, by decide⟩
      · split at hc
        · rename_i e; subst e; exact ⟨by decide, by decide⟩
        · split at hc
          · rename_i e; subst e; exact ⟨by decide, by decide⟩
          · cases hc
  simp only [hw.1] at h
  split at h
  · cases h
  · rename_i hlen
    cases h
    match value, hlen with
    | [], h => exact absurd (by simp) h
    | [_], h => exact absurd (by simp) h
    | a :: b :: r, _ =>
      refine ⟨a, b, r, rfl, rfl, ?_⟩
      intro hb
      simp only [readVarint, readVarintAux, hb, if_true] at hp
      split at hp
      · simp at hp
        have : a.toNat % 4294967296 = a.toNat := Nat.mod_eq_of_lt (by omega)
        omega
      · simp only [Option.bind_eq_bind, Option.bind_some, Option.map_some, Option.some.injEq] at hp
        have ha := a.toNat_lt
        have hp' : a.toNat - 128 + b.toNat * 128 = p := by omega
        unfold codecByPrefix at hc
        have key : ∀ (x y : UInt8), a.toNat = x.toNat → b.toNat = y.toNat → [a, b] = [x, y] := by
          intro x y h1 h2
          rw [UInt8.toNat_inj.1 h1, UInt8.toNat_inj.1 h2]
        split at hc
        · cases hc; apply key <;> simp <;> omega
        · split at hc
          · cases hc; apply key <;> simp <;> omega
          · split at hc
            · cases hc; apply key <;> simp <;> omega
            · split at hc
              · cases hc; apply key <;> simp <;> omega
              · cases hc

theorem readVarintAux_iff : ∀ (k shift : Nat) (s : Bytes) (v : Nat),
    readVarintAux k shift s = some v ↔ ∃ n, Leb128 k s n ∧ v = n * 2 ^ shift
  | 0, shift, s, v => by
    simp only [readVarintAux, reduceCtorEq, false_iff]
    rintro ⟨n, h, -⟩; cases h
  | k + 1, shift, [], v => by
    simp only [readVarintAux, reduceCtorEq, false_iff]
    rintro ⟨n, h, -⟩; cases h
  | k + 1, shift, b :: r, v => by
    unfold readVarintAux
    split
    · rename_i hb
      simp only [Option.some.injEq]
      constructor
      · rintro rfl; exact ⟨_, .last hb, rfl⟩
      · rintro ⟨n, h, rfl⟩
        cases h with
        | last _ => rfl
        | more h _ => omega
    · rename_i hb
      simp only [Option.bind_eq_bind, Option.bind_eq_some_iff, readVarintAux_iff, Option.some.injEq]
      have e : ∀ x n : Nat, x * 2 ^ shift + n * 2 ^ (shift + 7) = (x + 128 * n) * 2 ^ shift := by
        intro x n
        rw [Nat.pow_add, Nat.add_mul, show n * (2 ^ shift * 2 ^ 7) = 128 * n * 2 ^ shift by
          rw [Nat.mul_comm 128 n, Nat.mul_assoc, Nat.mul_comm 128]]
      constructor
      · rintro ⟨_, ⟨n, h, rfl⟩, rfl⟩
        exact ⟨_, .more (by omega) h, e _ _⟩
      · rintro ⟨_, h, rfl⟩
        cases h with
        | last h => omega
        | more _ h => exact ⟨_, ⟨_, h, rfl⟩, e _ _⟩

theorem readVarint_iff (s : Bytes) (v : Nat) : readVarint s = some v ↔ ∃ n, Leb128 5 s n ∧ v = n % 2 ^ 32 := by
  unfold readVarint
  simp only [Option.map_eq_some_iff, readVarintAux_iff, Nat.pow_zero, Nat.mul_one]
  constructor
  · rintro ⟨_, ⟨n, h, rfl⟩, rfl⟩; exact ⟨_, h, rfl⟩
  · rintro ⟨n, h, rfl⟩; exact ⟨_, ⟨_, h, rfl⟩, rfl⟩

theorem codecByPrefix_iff (n : Nat) (c : Codec) : codecByPrefix n = .ok c ↔ n = c.number := by
  unfold codecByPrefix
  constructor
  · intro h
    split at h
    · rename_i e; cases h; exact e
    · split at h
      · rename_i e; cases h; exact e
      · split at h
        · rename_i e; cases h; exact e
        · split at h
          · rename_i e; cases h; exact e
          · cases h
  · rintro rfl; cases c <;> rfl

/-- A number of two bytes or more is not read from one byte. -/
theorem leb_long {s : Bytes} {n : Nat} (h : Leb128 5 s n) (hn : 128 ≤ n % 2 ^ 32) : 2 ≤ s.length := by
  cases h with
  | last hb =>
    rename_i b r
    rw [Nat.mod_eq_of_lt (by omega)] at hn
    omega
  | more hb hr => cases hr <;> simp

theorem fromMulticodec_iff (value : Bytes) (c : Codec) (v : Bytes) :
    fromMulticodec value = .ok (c, v) ↔ (∃ n, Leb128 5 value n ∧ n % 2 ^ 32 = c.number) ∧ v = value.drop 2 := by
  unfold fromMulticodec
  have hw : ∀ c : Codec, (writeVarint c.number).length = 2 ∧ 128 ≤ c.number := by intro c; cases c <;> decide
  constructor
  · intro h
    obtain ⟨p, hp, h⟩ := res_bind_ok.1 h
    obtain ⟨codec, hc, h⟩ := res_bind_ok.1 h
    rw [okOr_eq_ok, readVarint_iff] at hp
    rw [codecByPrefix_iff] at hc
    obtain ⟨n, hn, rfl⟩ := hp
    simp only [hc, (hw codec).1] at h
    split at h
    · cases h
    · cases h; exact ⟨⟨n, hn, hc⟩, rfl⟩
  · rintro ⟨⟨n, hn, hc⟩, rfl⟩
    rw [(readVarint_iff value _).2 ⟨n, hn, rfl⟩, hc]
    have hlen : ¬ value.length < 2 := by
      have := leb_long hn (by rw [hc]; exact (hw c).2); omega
    simp only [okOr, bind, Except.bind, (codecByPrefix_iff c.number c).2 rfl, (hw c).1, if_neg hlen]

/-- C44: a multibase key is accepted exactly if it is `z` and the base58 text of bytes that begin with the number of the codec
which the method type asks for; the key is what follows two bytes. -/
theorem C44_accepted (want : Codec) (s : Str) (key : Bytes) :
    fromMultibase want s = .ok key ↔
      ∃ value n, s = b!"z" ++ b58Encode value ∧ Leb128 5 value n ∧ n % 2 ^ 32 = want.number ∧ key = value.drop 2 := by
  constructor
  · intro h
    unfold fromMultibase at h
    split at h
    · rename_i t
      obtain ⟨value, h1, h⟩ := res_bind_ok.1 h
      obtain ⟨⟨c, v⟩, h2, h⟩ := res_bind_ok.1 h
      simp only at h
      split at h
      · cases h
      · rename_i hc
        cases h
        have hc : c = want := by simpa using hc
        subst hc
        obtain ⟨⟨n, hn, he⟩, rfl⟩ := (fromMulticodec_iff _ _ _).1 h2
        have h1 : b58Decode t = some value := by simpa [bs58] using h1
        exact ⟨value, n, by rw [b58_encode_decode h1]; rfl, hn, he, rfl⟩
    · cases h
  · rintro ⟨value, n, rfl, hn, he, rfl⟩
    unfold fromMultibase
    simp only [List.cons_append, List.nil_append, bs58, b58_decode_encode, okOr, bind, Except.bind,
      (fromMulticodec_iff value want _).2 ⟨⟨n, hn, he⟩, rfl⟩]
    simp

/-- C44: an accepted key whose codec prefix is written in the two bytes it needs is the codec prefix followed by the key bytes;
there is only one such text for a key. -/
theorem C44_canonical (want : Codec) (s : Str) (key : Bytes) (value : Bytes) (hs : s = b!"z" ++ b58Encode value)
    (h : fromMultibase want s = .ok key) (hc : ∀ b, value[1]? = some b → b.toNat < 128) :
    value = want.prefixBytes ++ key ∧ s = multibaseOf want key := by
  have key' : value = want.prefixBytes ++ key := by
    subst hs
    unfold fromMultibase at h
    simp only [List.cons_append, List.nil_append, bs58, b58_decode_encode, okOr] at h
    obtain ⟨_, e, h⟩ := res_bind_ok.1 h
    cases e
    obtain ⟨⟨c, v⟩, h2, h⟩ := res_bind_ok.1 h
    simp only at h
    split at h
    · cases h
    · rename_i hw
      cases h
      have hw : c = want := by simpa using hw
      subst hw
      obtain ⟨a, b, r, rfl, rfl, h3⟩ := fromMulticodec_ok h2
      rw [← h3 (hc b rfl)]; rfl
  exact ⟨key', by rw [hs, key']; rfl⟩

/-- C44: every other text is refused: with `Malformed` if it is no base58, with `InvalidState` if no number can be read, otherwise
with `IllegalArgument`; never with a panic. -/
theorem C44_refused (want : Codec) (s : Str) :
    (s.head? ≠ some 0x7A → fromMultibase want s = .error (.kind .illegalArgument)) ∧
    (∀ t, s = b!"z" ++ t → (∀ value, t ≠ b58Encode value) → fromMultibase want s = .error (.kind .malformed)) ∧
    (∀ value, s = b!"z" ++ b58Encode value → (∀ n, ¬ Leb128 5 value n) → fromMultibase want s = .error (.kind .invalidState)) ∧
    (∀ value n, s = b!"z" ++ b58Encode value → Leb128 5 value n → n % 2 ^ 32 ≠ want.number →
      fromMultibase want s = .error (.kind .illegalArgument)) := by
  refine ⟨C44_not_base58btc want s, ?_, ?_, ?_⟩
  · rintro t rfl ht
    have : b58Decode t = none := by
      cases hd : b58Decode t with
      | none => rfl
      | some b => exact absurd (b58_encode_decode hd).symm (ht b)
    simp [fromMultibase, bs58, this, okOr, bind, Except.bind]
  · rintro value rfl hn
    have : readVarint value = none := by
      cases hd : readVarint value with
      | none => rfl
      | some v => obtain ⟨n, h, -⟩ := (readVarint_iff _ _).1 hd; exact absurd h (hn n)
    simp [fromMultibase, bs58, b58_decode_encode, fromMulticodec, this, okOr, bind, Except.bind]
  · rintro value n rfl hn hne
    have hr := (readVarint_iff value _).2 ⟨n, hn, rfl⟩
    have hp : ∀ c : Codec, fromMulticodec value = .ok (c, value.drop 2) → c ≠ want := by
      rintro c h rfl
      obtain ⟨⟨n', hn', e⟩, -⟩ := (fromMulticodec_iff _ _ _).1 h
      have := (readVarint_iff value _).2 ⟨n', hn', rfl⟩
      rw [hr] at this
      exact hne ((Option.some.inj this).trans e)
    simp only [fromMultibase, List.cons_append, List.nil_append, bs58, b58_decode_encode, okOr, bind, Except.bind]
    cases hc : codecByPrefix (n % 2 ^ 32) with
    | ok c =>
      have hm := (fromMulticodec_iff value c _).2 ⟨⟨n, hn, (codecByPrefix_iff _ _).1 hc⟩, rfl⟩
      rw [hm]
      simp [hp c hm, fail]
    | error e =>
      have he : e = .kind .illegalArgument := by
        unfold codecByPrefix at hc
        split at hc
        · cases hc
        · split at hc
          · cases hc
          · split at hc
            · cases hc
            · split at hc
              · cases hc
              · cases hc; rfl
      simp [fromMulticodec, hr, okOr, bind, Except.bind, hc, he]

/-- A text for each case: a canonical prefix, another codec, an endless number, a symbol that is not base58. -/
example : (∃ n, Leb128 5 [0xEC, 0x01, 7] n ∧ n % 2 ^ 32 = Codec.x25519Pub.number) ∧ (∃ n, Leb128 5 [0x12, 7] n ∧ n % 2 ^ 32 ≠ Codec.x25519Pub.number) ∧
    (∀ n, ¬ Leb128 5 [0xFF, 0xFF] n) ∧ b58Decode b!"0" = none := by
  refine ⟨⟨_, .more (by decide) (.last (by decide)), by decide⟩, ⟨_, .last (by decide), by decide⟩, fun n h => ?_, by decide⟩
  cases h with
  | last h => exact absurd h (by decide)
  | more _ h =>
    cases h with
    | last h => exact absurd h (by decide)
    | more _ h => cases h

/-- C44: for non-canonical prefixes the key is not what follows the prefix: `EC 81 00` also reads as 0xEC, but only two
bytes are dropped, so a prefix byte ends up in the key. -/
theorem C44_noncanonical : fromMultibase .x25519Pub (b!"z" ++ b58Encode [0xEC, 0x81, 0x00, 7, 8, 9])
    = .ok [0x00, 7, 8, 9] := by
  simp only [fromMultibase, List.cons_append, List.nil_append, bs58, b58_decode_encode]
  rfl

example : b58Encode [0, 0, 1, 2, 3] = b!"11Ldp" ∧ b58Decode b!"11Ldp" = some [0, 0, 1, 2, 3] := by decide +kernel
example : fromMultibase .x25519Pub (multibaseOf .x25519Pub [1, 2, 3]) = .ok [1, 2, 3] := C44_decodes _ _

/-! ## C45: key formats -/

/-- C45: the JWK, Base58 and Multibase renderings of an X25519 public key give the same
result. -/
theorem C45_x25519_public (C : Crypto) (id ctrl : Str) (x : Bytes) :
    let jwk : VerificationMethod := ⟨id, .jsonWebKey2020, ctrl, .jwk (publicJwk b!"X25519" x)⟩
    let b58 : VerificationMethod := ⟨id, .x25519KeyAgreementKey2019, ctrl, .base58 (b58Encode x)⟩
    let mb : VerificationMethod := ⟨id, .x25519KeyAgreementKey2020, ctrl, .multibase (multibaseOf .x25519Pub x)⟩
    b58.asKeyPair C = jwk.asKeyPair C ∧ mb.asKeyPair C = jwk.asKeyPair C ∧
    b58.keyAlg = jwk.keyAlg ∧ mb.keyAlg = jwk.keyAlg := by
  intro jwk b58 mb
  have hc : jwkCurve (publicJwk b!"X25519" x) = some .x25519 := rfl
  have h1 : jwk.asKeyPair C = pairFromJwk C .x25519 (publicJwk b!"X25519" x) := by
    simp [jwk, VerificationMethod.asKeyPair, hc]
  refine ⟨?_, ?_, rfl, rfl⟩
  · rw [h1]
    simp [b58, VerificationMethod.asKeyPair, bs58, b58_decode_encode, okOr, bind, Except.bind]
    rfl
  · rw [h1]
    simp [mb, VerificationMethod.asKeyPair, C44_decodes, bind, Except.bind]
    rfl

/-- C45: the same for an Ed25519 public key. -/
theorem C45_ed25519_public (C : Crypto) (id ctrl : Str) (x : Bytes) :
    let jwk : VerificationMethod := ⟨id, .jsonWebKey2020, ctrl, .jwk (publicJwk b!"Ed25519" x)⟩
    let b58 : VerificationMethod := ⟨id, .ed25519VerificationKey2018, ctrl, .base58 (b58Encode x)⟩
    let mb : VerificationMethod := ⟨id, .ed25519VerificationKey2020, ctrl, .multibase (multibaseOf .ed25519Pub x)⟩
    b58.asKeyPair C = jwk.asKeyPair C ∧ mb.asKeyPair C = jwk.asKeyPair C ∧
    b58.keyAlg = jwk.keyAlg ∧ mb.keyAlg = jwk.keyAlg := by
  intro jwk b58 mb
  have hc : jwkCurve (publicJwk b!"Ed25519" x) = some .ed25519 := rfl
  have h1 : jwk.asKeyPair C = pairFromJwk C .ed25519 (publicJwk b!"Ed25519" x) := by
    simp [jwk, VerificationMethod.asKeyPair, hc]
  refine ⟨?_, ?_, rfl, rfl⟩
  · rw [h1]
    simp [b58, VerificationMethod.asKeyPair, bs58, b58_decode_encode, okOr, bind, Except.bind]
    rfl
  · rw [h1]
    simp [mb, VerificationMethod.asKeyPair, C44_decodes, bind, Except.bind]
    rfl

/-- C45: the three renderings of an Ed25519 secret (`d` of 32 bytes, then `x`). -/
theorem C45_ed25519_secret (C : Crypto) (id : Str) (d x : Bytes) (hd : d.length = 32) :
    let jwk : Secret := ⟨id, .jsonWebKey2020, .jwk (privateJwk b!"Ed25519" d x)⟩
    let b58 : Secret := ⟨id, .ed25519VerificationKey2018, .base58 (b58Encode (d ++ x))⟩
    let mb : Secret := ⟨id, .ed25519VerificationKey2020, .multibase (multibaseOf .ed25519Priv (d ++ x))⟩
    b58.asKeyPair C = jwk.asKeyPair C ∧ mb.asKeyPair C = jwk.asKeyPair C ∧
    b58.keyAlg = jwk.keyAlg ∧ mb.keyAlg = jwk.keyAlg := by
  intro jwk b58 mb
  have hc : jwkCurve (privateJwk b!"Ed25519" d x) = some .ed25519 := rfl
  have h1 : jwk.asKeyPair C = pairFromJwk C .ed25519 (privateJwk b!"Ed25519" d x) := by
    simp [jwk, Secret.asKeyPair, hc]
  have h2 : ed25519Secret C (d ++ x) = pairFromJwk C .ed25519 (privateJwk b!"Ed25519" d x) := by
    have h3 : ¬ (d ++ x).length < 32 := by simp; omega
    have h4 : (d ++ x).drop 32 = x := by rw [← hd]; simp
    have h5 : (d ++ x).take 32 = d := by rw [← hd]; simp
    unfold ed25519Secret
    rw [if_neg h3, h4, h5]
    rfl
  refine ⟨?_, ?_, rfl, rfl⟩
  · rw [h1, ← h2]
    simp [b58, Secret.asKeyPair, bs58, b58_decode_encode, okOr, bind, Except.bind]
  · rw [h1, ← h2]
    simp [mb, Secret.asKeyPair, C44_decodes, bind, Except.bind]

/-- C45: the three renderings of an X25519 secret `d`; the public half `x` is the one the
crypto crate computes from `d`. -/
theorem C45_x25519_secret (C : Crypto) (id : Str) (d : Bytes) (k : C.Key) (hk : C.x25519FromSecret d = some k)
    (hs : C.secretBytes k = some d) :
    let jwk : Secret := ⟨id, .jsonWebKey2020, .jwk (privateJwk b!"X25519" d (C.publicBytes k))⟩
    let b58 : Secret := ⟨id, .x25519KeyAgreementKey2019, .base58 (b58Encode d)⟩
    let mb : Secret := ⟨id, .x25519KeyAgreementKey2020, .multibase (multibaseOf .x25519Priv d)⟩
    b58.asKeyPair C = jwk.asKeyPair C ∧ mb.asKeyPair C = jwk.asKeyPair C ∧
    b58.keyAlg = jwk.keyAlg ∧ mb.keyAlg = jwk.keyAlg := by
  intro jwk b58 mb
  have hc : jwkCurve (privateJwk b!"X25519" d (C.publicBytes k)) = some .x25519 := rfl
  have h1 : jwk.asKeyPair C = pairFromJwk C .x25519 (privateJwk b!"X25519" d (C.publicBytes k)) := by
    simp [jwk, Secret.asKeyPair, hc]
  have h2 : x25519Secret C d = pairFromJwk C .x25519 (privateJwk b!"X25519" d (C.publicBytes k)) := by
    simp only [x25519Secret, hk, hs, okOr, bind, Except.bind]
    rfl
  refine ⟨?_, ?_, rfl, rfl⟩
  · rw [h1, ← h2]
    simp [b58, Secret.asKeyPair, bs58, b58_decode_encode, okOr, bind, Except.bind]
  · rw [h1, ← h2]
    simp [mb, Secret.asKeyPair, C44_decodes, bind, Except.bind]

/-- The hypotheses of `C45_x25519_secret` hold for the toy primitives. -/
example : ∃ k, Toy.crypto.x25519FromSecret [1, 2, 3] = some k ∧ Toy.crypto.secretBytes k = some [1, 2, 3] :=
  ⟨([1, 2, 3] : Bytes), rfl, rfl⟩
/-- The renderings do give a key. -/
example : ((⟨[], .x25519KeyAgreementKey2019, [], .base58 (b58Encode [1, 2, 3])⟩ : VerificationMethod).asKeyPair
    Toy.crypto).map (fun p => (p.curve, (p.key : Bytes))) = .ok (.x25519, [1, 2, 3]) := by
  rw [(C45_x25519_public Toy.crypto [] [] [1, 2, 3]).1]; rfl

/-! ## C47: announced and produced key type -/

theorem pairFromJwk_curve {C : Crypto} {c : Curve} {v : Value} {p : KeyPair C} (h : pairFromJwk C c v = .ok p) :
    p.curve = c := by
  unfold pairFromJwk at h
  obtain ⟨k, -, h⟩ := res_bind_ok.1 h
  cases h; rfl

/-- C47: the key pair of a verification method has the announced type. -/
theorem C47_method (C : Crypto) (vm : VerificationMethod) (p : KeyPair C) (h : vm.asKeyPair C = .ok p) :
    vm.keyAlg = some p.curve := by
  obtain ⟨id, t, ctrl, m⟩ := vm
  unfold VerificationMethod.asKeyPair at h
  unfold VerificationMethod.keyAlg DIDComm.keyAlg
  cases t <;> cases m <;> simp only [] at h ⊢ <;> first
    | (obtain ⟨x, -, h⟩ := res_bind_ok.1 h; rw [pairFromJwk_curve h])
    | cases h
    | (split at h
       · rename_i hc; rw [pairFromJwk_curve h, hc]
       · cases h)

theorem x25519Secret_curve {C : Crypto} {d : Bytes} {p : KeyPair C} (h : x25519Secret C d = .ok p) :
    p.curve = .x25519 := by
  unfold x25519Secret at h
  obtain ⟨k, -, h⟩ := res_bind_ok.1 h
  exact pairFromJwk_curve h

theorem ed25519Secret_curve {C : Crypto} {d : Bytes} {p : KeyPair C} (h : ed25519Secret C d = .ok p) :
    p.curve = .ed25519 := by
  unfold ed25519Secret at h
  split at h
  · cases h
  · exact pairFromJwk_curve h

/-- C47: the key pair of a secret has the announced type. -/
theorem C47_secret (C : Crypto) (s : Secret) (p : KeyPair C) (h : s.asKeyPair C = .ok p) :
    s.keyAlg = some p.curve := by
  obtain ⟨id, t, m⟩ := s
  unfold Secret.asKeyPair at h
  unfold Secret.keyAlg DIDComm.keyAlg
  cases t <;> cases m <;> simp only [] at h ⊢ <;> first
    | (obtain ⟨x, -, h⟩ := res_bind_ok.1 h
       first | rw [x25519Secret_curve h] | rw [ed25519Secret_curve h])
    | cases h
    | (split at h
       · rename_i hc; rw [pairFromJwk_curve h, hc]
       · cases h)

/-- C47: material of an unsupported type never becomes a key: the error is `Unsupported`. -/
theorem C47_unsupported (C : Crypto) (vm : VerificationMethod) (s : Secret) :
    (vm.keyAlg = none → vm.asKeyPair C = .error (.kind .unsupported)) ∧
    (s.keyAlg = none → s.asKeyPair C = .error (.kind .unsupported)) := by
  constructor
  · intro h
    unfold VerificationMethod.keyAlg DIDComm.keyAlg at h
    unfold VerificationMethod.asKeyPair
    split at h <;> rename_i h1 h2 <;> simp_all
  · intro h
    unfold Secret.keyAlg DIDComm.keyAlg at h
    unfold Secret.asKeyPair
    split at h <;> rename_i h1 h2 <;> simp_all

example : ∃ p, (⟨[], .ed25519VerificationKey2018, .base58 (b58Encode (List.replicate 33 7))⟩ : Secret).asKeyPair
    Toy.crypto = .ok p := by
  refine ⟨⟨.ed25519, ([7] : Bytes)⟩, ?_⟩
  have := (C45_ed25519_secret Toy.crypto [] (List.replicate 32 7) [7] rfl).1
  exact this.trans rfl

end DIDComm
