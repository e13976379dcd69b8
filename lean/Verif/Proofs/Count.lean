import Verif.Spec.Count
import Verif.Proofs.Evidence

/-! # Counting questions -/

set_option autoImplicit false

namespace DIDComm

variable {α β : Type} {C : Crypto} {r f g n : Int}

/-- Weighted number of questions: `r` for a resolution, `f` for a search for secrets, `g` for a secret. -/
def cost (r f g : Int) (tr : List Event) : Int := r * resolutions tr + f * searches tr + g * secretReads tr

theorem cost_nil : cost r f g [] = 0 := by simp [cost, resolutions, searches, secretReads]

theorem cost_append (a b : List Event) : cost r f g (a ++ b) = cost r f g a + cost r f g b := by
  simp only [cost, resolutions, searches, secretReads, List.countP_append]
  grind

/-- Every run of the program costs at most `n`. -/
def Count (r f g n : Int) (p : Prog α) : Prop := ∀ tr x, Runs p tr x → cost r f g tr ≤ n

namespace Count

theorem ret {x : Res α} (h : 0 ≤ n := by omega) : Count r f g n (.ret x) := by
  intro tr y hr
  rw [(runs_ret.1 hr).1, cost_nil]; exact h

theorem lift {x : Res α} (h : 0 ≤ n := by omega) : Count r f g n (Prog.lift x) := ret h
theorem pure {a : α} (h : 0 ≤ n := by omega) : Count r f g n (Pure.pure a : Prog α) := ret h
theorem fail {k : ErrorKind} (h : 0 ≤ n := by omega) : Count r f g n (Prog.fail k : Prog α) := ret h

theorem bind {m m' : Int} {p : Prog α} {k : α → Prog β} (hp : Count r f g m p) (hk : ∀ a, Count r f g m' (k a))
    (h : m ≤ n := by omega) (h' : m + m' ≤ n := by omega) : Count r f g n (p >>= k) := by
  intro tr x hr
  rcases runs_bind.1 hr with ⟨e, h1, -⟩ | ⟨a, t1, t2, rfl, h1, h2⟩
  · exact Int.le_trans (hp _ _ h1) h
  · rw [cost_append]
    have := hp _ _ h1
    have := hk a _ _ h2
    omega

theorem lift_bind {x : Res α} {k : α → Prog β} (hk : ∀ a, Count r f g n (k a)) (h : 0 ≤ n := by omega) :
    Count r f g n (Prog.lift x >>= k) := .bind (m := 0) (.lift (Int.le_refl _)) hk h (by omega)

theorem ite {c : Prop} [Decidable c] {p q : Prog α} (hp : c → Count r f g n p) (hq : ¬ c → Count r f g n q) :
    Count r f g n (if c then p else q) := by
  split
  · exact hp ‹_›
  · exact hq ‹_›

theorem resolve {d : Str} (h : r ≤ n := by omega) : Count r f g n (resolve d) := by
  intro tr x hr
  rcases runs_resolve.1 hr with ⟨_, rfl, -⟩ | ⟨_, rfl, -⟩ <;>
    simpa [cost, resolutions, searches, secretReads, Event.isResolve, Event.isFind, Event.isGet] using h

theorem findSecrets {l : List Str} (h : f ≤ n := by omega) : Count r f g n (findSecrets l) := by
  intro tr x hr
  rcases runs_findSecrets.1 hr with ⟨_, rfl, -⟩ | ⟨_, rfl, -⟩ <;>
    simpa [cost, resolutions, searches, secretReads, Event.isResolve, Event.isFind, Event.isGet] using h

theorem getSecret {d : Str} (h : g ≤ n := by omega) : Count r f g n (getSecret d) := by
  intro tr x hr
  rcases runs_getSecret.1 hr with ⟨_, rfl, -⟩ | ⟨_, rfl, -⟩ <;>
    simpa [cost, resolutions, searches, secretReads, Event.isResolve, Event.isFind, Event.isGet] using h

theorem withKind {p : Prog α} {k : ErrorKind} (h : Count r f g n p) : Count r f g n (p.withKind k) := by
  intro tr x hr
  obtain ⟨_, h', -⟩ := runs_withKind.1 hr
  exact h _ _ h'

end Count

/-- Without `expect_decrypt_by_all_keys` one secret is read per layer. -/
theorem decryptLoop_count {γ : Type} (all : Bool) (hg : 0 ≤ g) (ha : all = true → g = 0) {d : Str → KeyPair C → Res γ} :
    ∀ (l : List Str) (acc : Option γ), Count r f g g (decryptLoop C all d l acc) := by
  intro l
  induction l with
  | nil => intro acc; exact .pure
  | cons k l ih =>
    intro acc
    unfold decryptLoop
    refine .bind (m := g) (m' := 0) .getSecret fun _ => .lift_bind fun _ => .lift_bind fun _ => .lift_bind fun _ =>
      .ite (fun h => ?_) fun _ => .pure
    have := ih (some ‹_›)
    rwa [ha h] at this ⊢

variable (hr : 0 ≤ r) (hg : 0 ≤ g) (hfg : 0 ≤ f + g)

include hg hfg in
theorem tryUnpackAnoncrypt_count (msg : Str) (o : UnpackOptions) (ha : o.expectDecryptByAllKeys = true → g = 0)
    (md : UnpackMetadata) : Count r f g (f + g) (tryUnpackAnoncrypt C msg o md) := by
  unfold tryUnpackAnoncrypt
  refine .lift_bind fun j => ?_
  cases j with
  | none => exact .pure
  | some j =>
    exact .lift_bind fun _ => .ite (fun _ => .pure) fun _ => .lift_bind fun _ => .lift_bind fun _ =>
      .bind (m := f) (m' := g) .findSecrets fun _ => .ite (fun _ => .fail) fun _ =>
      .bind (m := g) (m' := 0) (decryptLoop_count _ hg ha _ _) fun _ => .lift_bind fun _ =>
      .ite (fun _ => .fail) fun _ => .pure

include hr hg hfg in
theorem tryUnpackAuthcrypt_count (msg : Str) (o : UnpackOptions) (ha : o.expectDecryptByAllKeys = true → g = 0)
    (md : UnpackMetadata) : Count r f g (r + (f + g)) (tryUnpackAuthcrypt C msg o md) := by
  unfold tryUnpackAuthcrypt
  refine .lift_bind fun j => ?_
  cases j with
  | none => exact .pure
  | some j =>
    exact .lift_bind fun _ => .ite (fun _ => .pure) fun _ => .lift_bind fun _ => .lift_bind fun _ =>
      .ite (fun _ => .fail) fun _ => .ite (fun _ => .fail) fun _ =>
      .bind (m := r) (m' := f + g) (.withKind .resolve) fun _ => .lift_bind fun _ =>
      .lift_bind fun _ => .lift_bind fun _ => .lift_bind fun _ => .lift_bind fun _ =>
      .bind (m := f) (m' := g) .findSecrets fun _ => .ite (fun _ => .fail) fun _ =>
      .bind (m := g) (m' := 0) (decryptLoop_count _ hg ha _ _) fun _ => .lift_bind fun _ =>
      .ite (fun _ => .fail) fun _ => .pure

include hr in
theorem tryUnpackSign_count (msg : Str) (md : UnpackMetadata) : Count r f g r (tryUnpackSign C msg md) := by
  unfold tryUnpackSign
  refine .lift_bind fun j => ?_
  cases j with
  | none => exact .pure
  | some j =>
    exact .lift_bind fun _ => .ite (fun _ => .fail) fun _ => .lift_bind fun _ => .lift_bind fun _ =>
      .ite (fun _ => .fail) fun _ => .bind (m := r) (m' := 0) .resolve fun _ => .lift_bind fun _ =>
      .lift_bind fun _ => .lift_bind fun _ => .lift_bind fun _ => .lift_bind fun _ => .lift_bind fun _ =>
      .ite (fun _ => .fail) fun _ => .lift_bind fun _ => .ite (fun _ => .fail) fun _ => .pure

include hr in
theorem FromPrior.unpack_count (jwt : Str) : Count r f g r (FromPrior.unpack C jwt) := by
  unfold FromPrior.unpack
  exact .lift_bind fun _ => .ite (fun _ => .fail) fun _ => .ite (fun _ => .fail) fun _ =>
    .bind (m := r) (m' := 0) .resolve fun _ => .lift_bind fun _ => .lift_bind fun _ => .lift_bind fun _ =>
    .lift_bind fun _ => .lift_bind fun _ => .lift_bind fun _ => .ite (fun _ => .fail) fun _ => .lift_bind fun _ =>
    .ite (fun _ => .fail) fun _ => .lift_bind fun _ => .lift

include hr in
theorem tryUnpackPlaintext_count (msg : Str) (md : UnpackMetadata) : Count r f g r (tryUnpackPlaintext C msg md) := by
  unfold tryUnpackPlaintext
  refine .lift_bind fun j => ?_
  cases j with
  | none => exact .pure
  | some j =>
    refine .lift_bind fun m => ?_
    cases m.fromPrior with
    | none => exact .pure
    | some _ => exact .bind (m := r) (m' := 0) (FromPrior.unpack_count hr _) fun _ => .pure

include hr in
theorem tryUnwrapForwarded_count (msg : Str) (hf : f ≤ n) (h0 : 0 ≤ n) (hn : r + f ≤ n) (hn' : r ≤ n) :
    Count r f g n (tryUnwrapForwarded C msg) := by
  unfold tryUnwrapForwarded
  refine .lift_bind fun j => ?_
  cases j with
  | none => exact .pure
  | some m =>
    simp only
    split
    · exact .pure
    · refine .bind (m := n) (m' := 0) ?_ fun _ => .ite (fun _ => .pure) fun _ => .pure
      unfold hasKeyAgreementSecret
      refine .bind (m := r) (m' := f) ?_ fun _ => .bind (m := f) (m' := 0) .findSecrets fun _ => .pure
      split
      · exact .pure
      · exact .bind (m := r) (m' := 0) .resolve fun _ => .lift_bind fun _ => .pure

include hr hg hfg in
/-- `b` bounds what looking for a forward costs. -/
theorem unwrapLoop_count (o : UnpackOptions) (ha : o.expectDecryptByAllKeys = true → g = 0) {b : Int} (hb : f ≤ b)
    (h0 : 0 ≤ b) (hb' : r + f ≤ b) (hb2 : r ≤ b) :
    ∀ (n : Nat) (msg : Str) (md : UnpackMetadata), Count r f g (n * (f + g + b)) (unwrapLoop C o n msg md) := by
  intro n
  induction n with
  | zero => intro msg md; unfold unwrapLoop; exact .ret
  | succ n ih =>
    intro msg md
    unfold unwrapLoop
    have h1 : 0 ≤ (n : Int) * (f + g + b) := Int.mul_nonneg (by omega) (by omega)
    have h2 : ((n + 1 : Nat) : Int) * (f + g + b) = n * (f + g + b) + (f + g + b) := by
      rw [Int.natCast_add, Int.add_mul]; simp
    generalize hk : (n : Int) * (f + g + b) = k at *
    rw [h2]
    refine .bind (m := f + g) (m' := b + k) (tryUnpackAnoncrypt_count hg hfg _ _ ha _) fun x => ?_
    obtain ⟨anon, md⟩ := x
    cases anon with
    | none => exact .pure
    | some p =>
      refine .ite (fun _ => .bind (m := b) (m' := k) (tryUnwrapForwarded_count hr _ hb h0 hb' hb2) fun f => ?_) fun _ => .pure
      cases f with
      | none => exact .pure
      | some i => exact ih _ _

include hr hg hfg in
theorem unpack_count (msg : Str) (o : UnpackOptions) (ha : o.expectDecryptByAllKeys = true → g = 0) {b : Int}
    (hb : f ≤ b) (h0 : 0 ≤ b) (hb' : r + f ≤ b) (hb2 : r ≤ b) :
    Count r f g (((msg.length + 1 : Nat) : Int) * (f + g + b) + (3 * r + (f + g))) (unpack C msg o) := by
  unfold unpack
  have h := unwrapLoop_count (C := C) hr hg hfg o ha hb h0 hb' hb2 (msg.length + 1) msg {}
  have h1 : 0 ≤ ((msg.length + 1 : Nat) : Int) * (f + g + b) := Int.mul_nonneg (by omega) (by omega)
  generalize ((msg.length + 1 : Nat) : Int) * (f + g + b) = k at *
  exact .bind (m := k) (m' := 3 * r + (f + g)) h fun _ =>
    .bind (m := r + (f + g)) (m' := 2 * r) (tryUnpackAuthcrypt_count hr hg hfg _ _ ha _) fun _ =>
    .bind (m := r) (m' := r) (tryUnpackSign_count hr _ _) fun _ =>
    .bind (m := r) (m' := 0) (tryUnpackPlaintext_count hr _ _) fun _ => .lift_bind fun _ => .pure

end DIDComm
