import Verif.Proofs.Shrink
import Verif.Proofs.Count
import Verif.Proofs.WorldParties
import Verif.Proofs.WorldRuns

/-!
# Unpacking ends (C25)

The model of the loop over forward layers is given a number of iterations, the length of the
text plus one, and ends with the error `fuel` when they are used up; the code has no such limit.
-/

set_option autoImplicit false

namespace DIDComm

variable {C : Crypto}

/-- Unpacking with a given limit on the iterations of the loop over forward layers; the model has the length of the
text plus one. -/
def unpackWithin (C : Crypto) (n : Nat) (msg : Str) (opts : UnpackOptions) : Prog (Message × UnpackMetadata) := do
  let (msg, md) ← unwrapLoop C opts n msg {}
  let (auth, md) ← tryUnpackAuthcrypt C msg opts md
  let msg := auth.getD msg
  let (signed, md) ← tryUnpackSign C msg md
  let msg := signed.getD msg
  let (m, md) ← tryUnpackPlaintext C msg md
  let m ← Prog.lift (okOr .malformed m)
  pure (m, md)

theorem unpackWithin_length (msg : Str) (o : UnpackOptions) : unpackWithin C (msg.length + 1) msg o = unpack C msg o := rfl

/-- C25: for every text, every resolver behaviour and every cryptography whose decryption never returns more than
it was given, unpacking ends before the iterations are used up. -/
theorem C25_ends (hd : NeverLonger C) (hf : PrintsFloats C) (msg : Str) (o : UnpackOptions) (tr : List Event) :
    ¬ Runs (unpack C msg o) tr (.error .fuel) := by
  intro hr
  unfold unpack at hr
  have noFuel : ∀ {β : Type} {p : Prog β} {tr : List Event}, Ends False (fun _ => False) p → ¬ Runs p tr (.error .fuel) := by
    intro β p tr he hr
    rcases he tr _ hr with ⟨k, h⟩ | ⟨h, -⟩ | h
    · cases h
    · cases h
    · exact h
  rcases runs_bind_error.1 hr with h | ⟨x, t1, t2, rfl, -, h⟩
  · exact unwrapLoop_enough hd hf o _ _ _ (fun tree ht => by have := parseJson_size ht; omega) (by omega) _ h
  · exact noFuel (.bind (tryUnpackAuthcrypt_ends _ _ _) fun _ => .bind (tryUnpackSign_ends _ _) fun _ =>
      .bind (tryUnpackPlaintext_ends _ _) fun _ => .bind (.lift .okOr) fun _ => .pure) h

/-- With any larger limit the loop behaves the same. -/
theorem unwrapLoop_no_limit (hd : NeverLonger C) (hf : PrintsFloats C) (msg : Str) (o : UnpackOptions) (md : UnpackMetadata)
    (n : Nat) (hn : msg.length + 1 ≤ n) (tr : List Event) (r : Res (Str × UnpackMetadata)) :
    Runs (unwrapLoop C o n msg md) tr r ↔ Runs (unwrapLoop C o (msg.length + 1) msg md) tr r := by
  have one : ∀ n msg md tr r, Runs (unwrapLoop C o n msg md) tr r → r ≠ .error .fuel →
      Runs (unwrapLoop C o (n + 1) msg md) tr r := by
    intro n
    induction n with
    | zero =>
      intro msg md tr r h hne
      exact absurd (runs_ret.1 h).2 hne
    | succ n ih =>
      intro msg md tr r h hne
      unfold unwrapLoop at h ⊢
      rw [runs_bind] at h ⊢
      rcases h with h | ⟨⟨anon, md1⟩, t1, t2, rfl, ha, h⟩
      · exact .inl h
      · refine .inr ⟨_, t1, t2, rfl, ha, ?_⟩
        cases anon with
        | none => exact h
        | some p =>
          simp only at h ⊢
          split
          · rename_i hu
            rw [if_pos hu, runs_bind] at h
            rw [runs_bind]
            rcases h with h | ⟨f, t3, t4, rfl, hf, h⟩
            · exact .inl h
            · refine .inr ⟨f, t3, t4, rfl, hf, ?_⟩
              cases f with
              | none => exact h
              | some i => exact ih _ _ _ _ h hne
          · rename_i hu
            rwa [if_neg hu] at h
  have more : ∀ k n msg md tr r, Runs (unwrapLoop C o n msg md) tr r → r ≠ .error .fuel →
      Runs (unwrapLoop C o (n + k) msg md) tr r := by
    intro k
    induction k with
    | zero => intro n msg md tr r h _; exact h
    | succ k ih => intro n msg md tr r h hne; exact one _ _ _ _ _ (ih _ _ _ _ _ h hne) hne
  have enough : ∀ n, msg.length + 1 ≤ n → ∀ tr, ¬ Runs (unwrapLoop C o n msg md) tr (.error .fuel) := fun n hn tr =>
    unwrapLoop_enough hd hf o n msg md (fun tree ht => by have := parseJson_size ht; omega) (by omega) tr
  obtain ⟨k, rfl⟩ : ∃ k, n = msg.length + 1 + k := ⟨n - (msg.length + 1), by omega⟩
  constructor
  · intro h
    -- every sequence of answers leads to a run of the shorter loop, and it is the same
    have tot : ∀ k n msg md tr r, Runs (unwrapLoop C o (n + k) msg md) tr r → r ≠ .error .fuel →
        Runs (unwrapLoop C o n msg md) tr r ∨ ∃ t, Runs (unwrapLoop C o n msg md) t (.error .fuel) := by
      intro k n
      induction n with
      | zero => intro msg md tr r _ _; exact .inr ⟨[], .ret _⟩
      | succ n ih =>
        intro msg md tr r h hne
        rw [show n + 1 + k = (n + k) + 1 by omega] at h
        unfold unwrapLoop at h ⊢
        rw [runs_bind] at h ⊢
        rcases h with h | ⟨⟨anon, md1⟩, t1, t2, rfl, ha, h⟩
        · exact .inl (.inl h)
        · cases anon with
          | none => exact .inl (.inr ⟨_, t1, t2, rfl, ha, h⟩)
          | some p =>
            by_cases hu : o.unwrapReWrappingForward = true
            · simp only [if_pos hu] at h ⊢
              rw [runs_bind] at h
              rcases h with h | ⟨f, t3, t4, rfl, hf, h⟩
              · refine .inl (.inr ⟨_, t1, t2, rfl, ha, ?_⟩)
                simp only
                rw [runs_bind]
                exact .inl h
              · cases f with
                | none =>
                  refine .inl (.inr ⟨_, t1, t3 ++ t4, rfl, ha, ?_⟩)
                  simp only
                  rw [runs_bind]
                  exact .inr ⟨_, t3, t4, rfl, hf, h⟩
                | some i =>
                  rcases ih _ _ _ _ h hne with h | ⟨t, h⟩
                  · refine .inl (.inr ⟨_, t1, t3 ++ t4, rfl, ha, ?_⟩)
                    simp only
                    rw [runs_bind]
                    exact .inr ⟨_, t3, t4, rfl, hf, h⟩
                  · refine .inr ⟨t1 ++ (t3 ++ t), ?_⟩
                    rw [runs_bind]
                    refine .inr ⟨_, t1, t3 ++ t, rfl, ha, ?_⟩
                    simp only
                    rw [runs_bind]
                    exact .inr ⟨_, t3, t, rfl, hf, h⟩
            · simp only [if_neg hu] at h ⊢
              exact .inl (.inr ⟨_, t1, t2, rfl, ha, h⟩)
    rcases tot k _ _ _ _ _ h (by rintro rfl; exact enough _ hn _ h) with h | ⟨t, h⟩
    · exact h
    · exact absurd h (enough _ (Nat.le_refl _) _)
  · intro h
    exact more _ _ _ _ _ _ h (by rintro rfl; exact enough _ (Nat.le_refl _) _ h)

/-- C25: the limit of the model makes no difference: with any larger one unpacking behaves the same.  So the loop of
the code, which has none, ends, after at most as many iterations as the text is long, plus one. -/
theorem C25_no_limit (hd : NeverLonger C) (hf : PrintsFloats C) (msg : Str) (o : UnpackOptions)
    (n : Nat) (hn : msg.length + 1 ≤ n) (tr : List Event) (r : Res (Message × UnpackMetadata)) :
    Runs (unpackWithin C n msg o) tr r ↔ Runs (unpack C msg o) tr r := by
  rw [← unpackWithin_length]
  unfold unpackWithin
  rw [runs_bind, runs_bind]
  simp only [unwrapLoop_no_limit hd hf msg o {} n hn]

/-- C25: so one call of unpack asks a number of questions that is linear in the length of the text, whatever the
answers, and whatever the limit on the iterations. -/
theorem C25_questions (hd : NeverLonger C) (hf : PrintsFloats C) (msg : Str) (o : UnpackOptions)
    (n : Nat) (hn : msg.length + 1 ≤ n) (tr : List Event) (r : Res (Message × UnpackMetadata))
    (h : Runs (unpackWithin C n msg o) tr r) :
    resolutions tr ≤ msg.length + 4 ∧ searches tr ≤ 2 * msg.length + 3 := by
  rw [C25_no_limit hd hf msg o n hn] at h
  have h1 := unpack_count (C := C) (r := 1) (f := 0) (g := 0) (b := 1) (by decide) (by decide) (by decide) msg o
    (fun _ => rfl) (by decide) (by decide) (by decide) (by decide) tr r h
  have h2 := unpack_count (C := C) (r := 0) (f := 1) (g := 0) (b := 1) (by decide) (by decide) (by decide) msg o
    (fun _ => rfl) (by decide) (by decide) (by decide) (by decide) tr r h
  simp only [cost] at h1 h2
  constructor <;> omega

/-- C24, C25: without `expect_decrypt_by_all_keys` unpack reads no more secrets than it makes searches — one per
encrypted layer. -/
theorem C24_one_secret_per_search (msg : Str) (o : UnpackOptions) (ho : o.expectDecryptByAllKeys = false)
    (tr : List Event) (r : Res (Message × UnpackMetadata)) (h : Runs (unpack C msg o) tr r) :
    secretReads tr ≤ searches tr := by
  have h1 := unpack_count (C := C) (r := 0) (f := -1) (g := 1) (b := 0) (by decide) (by decide) (by decide) msg o
    (fun h => by rw [ho] at h; cases h) (by decide) (by decide) (by decide) (by decide) tr r h
  simp only [cost] at h1
  omega

/-! ## The hypotheses are met -/

theorem World.neverLonger : NeverLonger Toy.crypto := by
  intro ce k iv aad x p h
  simp only [Toy.crypto, Toy.dropSuffix] at h
  split at h
  · cases h; simp only [List.length_take]; omega
  · cases h

theorem World.printsFloats : PrintsFloats Toy.crypto := by
  intro s t h
  simp only [Toy.crypto] at h
  split at h
  · cases h; assumption
  · cases h

/-- A message for Bob, wrapped twice in forwards that go to Bob's own keys. -/
def World.rewrapProg : Prog (Message × UnpackMetadata) := do
  let (out, _) ← packEncrypted Toy.crypto { id := [], type_ := [], body := .null } bob none none { forward := false }
  let out ← wrapInForward Toy.crypto out none bob [b!"did:example:bob#x1", b!"did:example:bob#p1"] .a256gcmEcdhEsA256kw
  unpack Toy.crypto out {}

set_option maxRecDepth 1000000 in
theorem World.rewrapTest : World.test World.env World.rewrapProg (fun x => x.2.reWrappedInForward) = true := by
  decide +kernel

/-- The loop is really taken. -/
example : ∃ (text : Str) (tr : List Event) (m : Message) (md : UnpackMetadata),
    Runs (unpack Toy.crypto text {}) tr (.ok (m, md)) ∧ md.reWrappedInForward = true ∧
    ¬ Runs (unpack Toy.crypto text {}) tr (.error .fuel) ∧ resolutions tr ≤ text.length + 4 := by
  obtain ⟨tr, ⟨m, md⟩, h, ha, hk⟩ := World.of_test World.rewrapTest
  unfold World.rewrapProg at h
  simp only [runs_bind_ok] at h
  obtain ⟨⟨out, _⟩, t1, _, rfl, _, out2, t2, t3, rfl, _, h⟩ := h
  exact ⟨out2, t3, m, md, h, hk, C25_ends World.neverLonger World.printsFloats _ _ _,
    (C25_questions World.neverLonger World.printsFloats _ _ _ (Nat.le_refl _) _ _ h).1⟩

end DIDComm
