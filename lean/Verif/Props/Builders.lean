import Verif.Spec.Builders
import Verif.Model.Example

/-! # C51-C53: builders and example resolvers -/

set_option autoImplicit false

namespace DIDComm

/-- Induction adding elements at the end. -/
theorem snoc_induction {α : Type} {P : List α → Prop} (h0 : P []) (h1 : ∀ l a, P l → P (l ++ [a])) (l : List α) :
    P l := by
  have : P l.reverse.reverse := by
    induction l.reverse with
    | nil => exact h0
    | cons a r ih => rw [List.reverse_cons]; exact h1 _ _ ih
  simpa using this

theorem lastArg_snoc {α β : Type} (f : α → Option β) (l : List α) (a : α) :
    lastArg f (l ++ [a]) = ((f a).or (lastArg f l)) := by
  unfold lastArg
  rw [List.filterMap_append]
  cases h : f a <;> simp [List.filterMap_cons, h]

theorem allArgs_snoc {α β : Type} (f : α → Option (List β)) (l : List α) (a : α) :
    allArgs f (l ++ [a]) = (match f a with
      | none => allArgs f l
      | some x => some ((allArgs f l).getD [] ++ x)) := by
  unfold allArgs
  rw [List.filterMap_append]
  cases h : f a with
  | none => simp [List.filterMap_cons, h]
  | some x =>
    by_cases h2 : List.filterMap f l = [] <;> simp [List.filterMap_cons, h, h2]

theorem lookup_hmInsert {α : Type} (k k' : Str) (v : α) (m : List (Str × α)) :
    (hmInsert k v m).lookup k' = if k = k' then some v else m.lookup k' := by
  induction m with
  | nil => 
    by_cases h : k = k' <;> simp [hmInsert, List.lookup, h]
    rw [beq_eq_false_iff_ne.2 (Ne.symm h)]
  | cons p r ih =>
    obtain ⟨k1, v1⟩ := p
    simp only [hmInsert]
    by_cases h1 : k = k1
    · subst h1
      by_cases h : k = k'
      · subst h; simp [List.lookup]
      · simp [List.lookup, h, beq_eq_false_iff_ne.2 (Ne.symm h)]
    · rw [if_neg h1]
      by_cases h2 : k' = k1
      · subst h2; simp [List.lookup, h1]
      · simp [List.lookup, beq_eq_false_iff_ne.2 h2, ih]

theorem keys_hmInsert {α : Type} (k : Str) (v : α) (m : List (Str × α)) :
    (hmInsert k v m).map Prod.fst = if k ∈ m.map Prod.fst then m.map Prod.fst else m.map Prod.fst ++ [k] := by
  induction m with
  | nil => simp [hmInsert]
  | cons p r ih =>
    obtain ⟨k1, v1⟩ := p
    simp only [hmInsert]
    by_cases h1 : k = k1
    · subst h1; simp
    · rw [if_neg h1, List.map_cons, ih]
      by_cases h2 : k ∈ r.map Prod.fst
      · simp only [h2, if_true, List.map_cons, List.mem_cons, or_true]
      · simp only [h2, if_false, List.map_cons, List.mem_cons, h1, or_false, List.cons_append]

/-- C51: what any sequence of calls on a message builder produces. -/
theorem C51_message_builder (id type_ : Str) (body : Value) (calls : List MsgCall) :
    let m := (calls.foldl MsgCall.run (MessageBuilder.new id type_ body)).finalize
    m.id = id ∧ m.typ = b!"application/didcomm-plain+json" ∧ m.type_ = type_ ∧ m.body = body ∧
    m.from_ = lastArg MsgCall.asFrom calls ∧
    m.thid = lastArg MsgCall.asThid calls ∧
    m.pthid = lastArg MsgCall.asPthid calls ∧
    m.createdTime = lastArg MsgCall.asCreated calls ∧
    m.expiresTime = lastArg MsgCall.asExpires calls ∧
    m.fromPrior = lastArg MsgCall.asFromPrior calls ∧
    m.to = allArgs MsgCall.asTo calls ∧
    m.attachments = allArgs MsgCall.asAttachments calls ∧
    (∀ k, m.extraHeaders.lookup k = lastArg (MsgCall.asHeader k) calls) ∧
    (m.extraHeaders.map Prod.fst).Nodup := by
  induction calls using snoc_induction with
  | h0 => simp [MessageBuilder.new, MessageBuilder.finalize, plaintextTyp, lastArg, allArgs]
  | h1 l a ih =>
    simp only [List.foldl_append, List.foldl_cons, List.foldl_nil, lastArg_snoc, allArgs_snoc]
    generalize l.foldl MsgCall.run (MessageBuilder.new id type_ body) = b at ih ⊢
    obtain ⟨h1, h2, h3, h4, h5, h6, h7, h8, h9, h10, h11, h12, h13, h14⟩ := ih
    simp only [MessageBuilder.finalize] at h1 h2 h3 h4 h5 h6 h7 h8 h9 h10 h11 h12 h13 h14
    cases a
    case header k v =>
      simp only [MsgCall.run, MessageBuilder.header, MessageBuilder.finalize, MsgCall.asFrom, MsgCall.asThid,
        MsgCall.asPthid, MsgCall.asCreated, MsgCall.asExpires, MsgCall.asFromPrior, MsgCall.asTo,
        MsgCall.asAttachments, MsgCall.asHeader, Option.none_or, lookup_hmInsert, keys_hmInsert]
      refine ⟨h1, h2, h3, h4, h5, h6, h7, h8, h9, h10, h11, h12, fun k' => ?_, ?_⟩
      · split <;> simp [h13]
      · split
        · exact h14
        · rw [List.nodup_append]
          refine ⟨h14, by simp, ?_⟩
          intro x hx y hy e
          simp only [List.mem_singleton] at hy
          subst hy; subst e
          exact absurd hx ‹_›
    case to t =>
      have : (b.addTo t) = { b with to := some (b.to.getD [] ++ [t]) } := by
        unfold MessageBuilder.addTo; split <;> rename_i h <;> simp [h]
      simp only [MsgCall.run, this, MessageBuilder.finalize, MsgCall.asFrom, MsgCall.asThid,
        MsgCall.asPthid, MsgCall.asCreated, MsgCall.asExpires, MsgCall.asFromPrior, MsgCall.asTo,
        MsgCall.asAttachments, MsgCall.asHeader, Option.none_or, ← h11]
      exact ⟨h1, h2, h3, h4, h5, h6, h7, h8, h9, h10, trivial, h12, h13, h14⟩
    case toMany t =>
      have : (b.toMany t) = { b with to := some (b.to.getD [] ++ t) } := by
        unfold MessageBuilder.toMany; split <;> rename_i h <;> simp [h]
      simp only [MsgCall.run, this, MessageBuilder.finalize, MsgCall.asFrom, MsgCall.asThid,
        MsgCall.asPthid, MsgCall.asCreated, MsgCall.asExpires, MsgCall.asFromPrior, MsgCall.asTo,
        MsgCall.asAttachments, MsgCall.asHeader, Option.none_or, ← h11]
      exact ⟨h1, h2, h3, h4, h5, h6, h7, h8, h9, h10, trivial, h12, h13, h14⟩
    case attachment t =>
      have : (b.addAttachment t) = { b with attachments := some (b.attachments.getD [] ++ [t]) } := by
        unfold MessageBuilder.addAttachment; split <;> rename_i h <;> simp [h]
      simp only [MsgCall.run, this, MessageBuilder.finalize, MsgCall.asFrom, MsgCall.asThid,
        MsgCall.asPthid, MsgCall.asCreated, MsgCall.asExpires, MsgCall.asFromPrior, MsgCall.asTo,
        MsgCall.asAttachments, MsgCall.asHeader, Option.none_or, ← h12]
      exact ⟨h1, h2, h3, h4, h5, h6, h7, h8, h9, h10, h11, trivial, h13, h14⟩
    case attachments t =>
      have : (b.addAttachments t) = { b with attachments := some (b.attachments.getD [] ++ t) } := by
        unfold MessageBuilder.addAttachments; split <;> rename_i h <;> simp [h]
      simp only [MsgCall.run, this, MessageBuilder.finalize, MsgCall.asFrom, MsgCall.asThid,
        MsgCall.asPthid, MsgCall.asCreated, MsgCall.asExpires, MsgCall.asFromPrior, MsgCall.asTo,
        MsgCall.asAttachments, MsgCall.asHeader, Option.none_or, ← h12]
      exact ⟨h1, h2, h3, h4, h5, h6, h7, h8, h9, h10, h11, trivial, h13, h14⟩
    all_goals
      simp only [MsgCall.run, MessageBuilder.setFrom, MessageBuilder.setThid, MessageBuilder.setPthid,
        MessageBuilder.setCreatedTime, MessageBuilder.setExpiresTime, MessageBuilder.setFromPrior,
        MessageBuilder.finalize, MsgCall.asFrom, MsgCall.asThid,
        MsgCall.asPthid, MsgCall.asCreated, MsgCall.asExpires, MsgCall.asFromPrior, MsgCall.asTo,
        MsgCall.asAttachments, MsgCall.asHeader, Option.none_or, Option.some_or]
      simp only [h1, h2, h3, h4, h5, h6, h7, h8, h9, h10, h11, h12, h13, h14, and_self, implies_true]

example : (([.to b!"a", .header b!"h" .null, .toMany [b!"b", b!"a"], .from_ b!"x", .header b!"h" (.bool true),
    .from_ b!"y"] : List MsgCall).foldl MsgCall.run (MessageBuilder.new b!"1" b!"t" .null)).finalize
    = { id := b!"1", type_ := b!"t", body := .null, from_ := some b!"y", to := some [b!"a", b!"b", b!"a"],
        extraHeaders := [(b!"h", .bool true)] } := rfl

/-- Attachment data with the signature replaced if one is given. -/
def AttachmentData.withJws : AttachmentData → Option Str → AttachmentData
  | .base64 b j, s => .base64 b (s.or j)
  | .json v j, s => .json v (s.or j)
  | .links l h j, s => .links l h (s.or j)

/-- C52: what any sequence of calls on an attachment builder produces; `start` is any
builder with only its data set, as `base64`, `json` and `links` return. -/
theorem C52_attachment_builder (data : AttachmentData) (calls : List AttCall) :
    (calls.foldl AttCall.run { data := data }).finalize =
      { data := data.withJws (lastArg AttCall.asJws calls),
        id := lastArg AttCall.asId calls,
        description := lastArg AttCall.asDescription calls,
        filename := lastArg AttCall.asFilename calls,
        mediaType := lastArg AttCall.asMediaType calls,
        format := lastArg AttCall.asFormat calls,
        lastmodTime := lastArg AttCall.asLastmod calls,
        byteCount := lastArg AttCall.asByteCount calls } := by
  induction calls using snoc_induction with
  | h0 => cases data <;> rfl
  | h1 l a ih =>
    simp only [List.foldl_append, List.foldl_cons, List.foldl_nil, lastArg_snoc]
    generalize l.foldl AttCall.run { data := data } = b at ih ⊢
    obtain ⟨b1, b2, b3, b4, b5, b6, b7, b8⟩ := b
    simp only [AttachmentBuilder.finalize, Attachment.mk.injEq] at ih
    obtain ⟨h1, h2, h3, h4, h5, h6, h7, h8⟩ := ih
    subst h1 h2 h3 h4 h5 h6 h7 h8
    cases a <;> cases data <;> simp [AttCall.run, AttachmentBuilder.setId, AttachmentBuilder.setDescription,
      AttachmentBuilder.setFilename, AttachmentBuilder.setMediaType, AttachmentBuilder.setFormat,
      AttachmentBuilder.setLastmodTime, AttachmentBuilder.setByteCount, AttachmentBuilder.setJws,
      AttachmentBuilder.finalize, AttCall.asId, AttCall.asDescription, AttCall.asFilename, AttCall.asMediaType,
      AttCall.asFormat, AttCall.asLastmod, AttCall.asByteCount, AttCall.asJws, AttachmentData.withJws]

/-- C52: the three ways to start. -/
theorem C52_attachment_start (b h : Str) (v : Value) (l : List Str) :
    AttachmentBuilder.base64 b = { data := .base64 b none } ∧ AttachmentBuilder.json v = { data := .json v none } ∧
    AttachmentBuilder.links l h = { data := .links l h none } := ⟨rfl, rfl, rfl⟩

/-- C52: what any sequence of calls on a `from_prior` builder produces. -/
theorem C52_from_prior_builder (iss sub : Str) (calls : List FpCall) :
    (calls.foldl FpCall.run (FromPriorBuilder.new iss sub)).finalize =
      { iss := iss, sub := sub, aud := lastArg FpCall.asAud calls, exp := lastArg FpCall.asExp calls,
        nbf := lastArg FpCall.asNbf calls, iat := lastArg FpCall.asIat calls, jti := lastArg FpCall.asJti calls } := by
  induction calls using snoc_induction with
  | h0 => rfl
  | h1 l a ih =>
    simp only [List.foldl_append, List.foldl_cons, List.foldl_nil, lastArg_snoc]
    generalize l.foldl FpCall.run (FromPriorBuilder.new iss sub) = b at ih ⊢
    obtain ⟨b1, b2, b3, b4, b5, b6, b7⟩ := b
    simp only [FromPriorBuilder.finalize, FromPrior.mk.injEq] at ih
    obtain ⟨h1, h2, h3, h4, h5, h6, h7⟩ := ih
    subst h1 h2 h3 h4 h5 h6 h7
    cases a <;> simp [FpCall.run, FromPriorBuilder.setAud, FromPriorBuilder.setExp, FromPriorBuilder.setNbf,
      FromPriorBuilder.setIat, FromPriorBuilder.setJti, FromPriorBuilder.finalize, FpCall.asAud, FpCall.asExp,
      FpCall.asNbf, FpCall.asIat, FpCall.asJti]

example : ((([.jws b!"s", .id b!"1", .jws b!"t"] : List AttCall).foldl AttCall.run
    (AttachmentBuilder.links [b!"l"] b!"h")).finalize : Attachment)
    = { data := .links [b!"l"] b!"h" (some b!"t"), id := some b!"1" } := rfl
example : (([.exp 5, .aud b!"a", .exp 6] : List FpCall).foldl FpCall.run (FromPriorBuilder.new b!"i" b!"s")).finalize
    = { iss := b!"i", sub := b!"s", aud := some b!"a", exp := some 6 } := rfl

/-! ## C53 -/

/-- C53: the document found is a stored one with that id, and none stored before it has
the id; `none` only if no stored document has it. -/
theorem C53_resolve (docs : List DIDDoc) (did : Str) :
    (∀ d, exampleResolve docs did = some d ↔
      d.id = did ∧ ∃ before after, docs = before ++ d :: after ∧ ∀ x ∈ before, x.id ≠ did) ∧
    (exampleResolve docs did = none ↔ ∀ d ∈ docs, d.id ≠ did) := by
  unfold exampleResolve
  constructor
  · intro d; rw [List.find?_eq_some_iff_append]; simp
  · simp

/-- C53: the same for secrets. -/
theorem C53_get_secret (secrets : List Secret) (id : Str) :
    (∀ s, exampleGetSecret secrets id = some s ↔
      s.id = id ∧ ∃ before after, secrets = before ++ s :: after ∧ ∀ x ∈ before, x.id ≠ id) ∧
    (exampleGetSecret secrets id = none ↔ ∀ s ∈ secrets, s.id ≠ id) := by
  unfold exampleGetSecret
  constructor
  · intro d; rw [List.find?_eq_some_iff_append]; simp
  · simp

/-- C53: `find_secrets` keeps order and multiplicity of the request, and keeps exactly
the ids that `get_secret` finds. -/
theorem C53_find_secrets (secrets : List Secret) (ids : List Str) :
    (exampleFindSecrets secrets ids).Sublist ids ∧
    (∀ i, i ∈ exampleFindSecrets secrets ids ↔ i ∈ ids ∧ ∃ s ∈ secrets, s.id = i) ∧
    (∀ i, (exampleFindSecrets secrets ids).count i = if ∃ s ∈ secrets, s.id = i then ids.count i else 0) := by
  unfold exampleFindSecrets
  refine ⟨List.filter_sublist, fun i => by simp [List.find?_isSome], fun i => ?_⟩
  split
  · rename_i h
    rw [List.count_filter]
    simpa [List.find?_isSome] using h
  · rename_i h
    rw [List.count_eq_zero]
    simp only [List.mem_filter, List.find?_isSome, beq_iff_eq, not_and]
    exact fun _ => h

/-- C53: an id reported by `find_secrets` can be fetched. -/
theorem C53_consistent (secrets : List Secret) (ids : List Str) :
    ∀ i ∈ exampleFindSecrets secrets ids, ∃ s, exampleGetSecret secrets i = some s ∧ s.id = i := by
  intro i hi
  have h := (List.mem_filter.1 hi).2
  obtain ⟨s, hs⟩ := Option.isSome_iff_exists.1 h
  exact ⟨s, hs, by simpa using List.find?_some hs⟩

example : exampleFindSecrets [⟨b!"k2", .other, .base58 []⟩, ⟨b!"k1", .other, .base58 []⟩] [b!"k1", b!"k3", b!"k2"]
    = [b!"k1", b!"k2"] := by decide

end DIDComm
