import Verif.Props.RoundTrip

/-! # C87: what a message says does not matter to whether it is accepted -/

set_option autoImplicit false

namespace DIDComm

variable {C : Crypto}

/-- What `unpack` does with the text of a message that does not look like an envelope. -/
theorem unpack_message (m : Message) (hw : m.WF C.f64) (hn : NotEnvelope m) (opts : UnpackOptions) (tr : List Event)
    (r : Res (Message × UnpackMetadata)) :
    Runs (unpack C m.toJson.print opts) tr r ↔
      (m.typ ≠ plaintextTyp ∧ tr = [] ∧ r = .error (.kind .malformed)) ∨
      (m.typ = plaintextTyp ∧ m.fromPrior = none ∧ tr = [] ∧ r = .ok (m, {})) ∨
      (m.typ = plaintextTyp ∧ ∃ jwt r', m.fromPrior = some jwt ∧ Runs (FromPrior.unpack C jwt) tr r' ∧
        r = r'.map fun x => (m, { ({} : UnpackMetadata) with fromPrior := some x.1, fromPriorIssuerKid := some x.2 })) := by
  rw [unpack_plain (message_not_jwe hw hn) (message_not_jws hw hn)]
  have hm : messageFromStr C m.toJson.print = .ok m := message_print m hw
  unfold afterSign tryUnpackPlaintext
  rw [hm]
  simp only [recognise]
  rw [lift_ok_bind rfl]
  simp only
  by_cases ht : m.typ = plaintextTyp
  · have hv : m.validate = .ok m := by unfold Message.validate; rw [if_neg]; simpa using ht
    rw [lift_ok_bind hv]
    cases hf : m.fromPrior with
    | none =>
      show Runs (.ret (.ok (m, {}))) tr r ↔ _
      rw [runs_ret]
      simp [ht]
    | some jwt =>
      simp only [ht, true_and, not_true_eq_false, false_and, ne_eq, false_or, reduceCtorEq, Option.some.injEq]
      constructor
      · intro h
        rcases runs_bind.1 h with ⟨e, he, rfl⟩ | ⟨⟨o, md⟩, t1, t2, rfl, h1, h2⟩
        · rcases runs_bind.1 he with ⟨e', he', h'⟩ | ⟨⟨fp, k⟩, u1, u2, rfl, g1, g2⟩
          · cases h'
            exact ⟨jwt, _, rfl, he', rfl⟩
          · exact absurd (runs_pure.1 g2).2 (by simp)
        · rcases runs_bind.1 h1 with ⟨e', he', h'⟩ | ⟨⟨fp, k⟩, u1, u2, rfl, g1, g2⟩
          · cases h'
          · obtain ⟨rfl, g⟩ := runs_pure.1 g2
            cases g
            obtain ⟨rfl, rfl⟩ := runs_pure.1 h2
            exact ⟨jwt, _, rfl, by simpa using g1, rfl⟩
      · rintro ⟨_, r', rfl, h, rfl⟩
        refine runs_bind.2 ?_
        cases r' with
        | error e => exact .inl ⟨e, runs_bind.2 (.inl ⟨e, h, rfl⟩), rfl⟩
        | ok x =>
          exact .inr ⟨(some m, _), tr, [], by simp, runs_bind.2 (.inr ⟨x, tr, [], by simp, h, runs_pure.2 ⟨rfl, rfl⟩⟩), runs_pure.2 ⟨rfl, rfl⟩⟩
  · have hv : m.validate = .error (.kind .malformed) := by unfold Message.validate; rw [if_pos ht]
    rw [hv]
    show Runs (.ret (.error (.kind .malformed))) tr r ↔ _
    rw [runs_ret]
    simp [ht]

/-- C87: of two messages with the same `typ` and the same `from_prior`, `unpack` asks the same questions, and given the same answers it
ends in the same way: with the same error, or with the same findings and the message itself.  So times, addresses, thread
identifiers, body, attachments and extra headers decide nothing, and a message whose `expires_time` has long passed is accepted. -/
theorem C87_content (m m' : Message) (hw : m.WF C.f64) (hw' : m'.WF C.f64) (hn : NotEnvelope m) (hn' : NotEnvelope m')
    (ht : m'.typ = m.typ) (hp : m'.fromPrior = m.fromPrior) (opts opts' : UnpackOptions) (tr : List Event)
    (r : Res (Message × UnpackMetadata)) (h : Runs (unpack C m.toJson.print opts) tr r) :
    Runs (unpack C m'.toJson.print opts') tr (r.map fun x => (m', x.2)) := by
  rw [unpack_message _ hw hn] at h
  rw [unpack_message _ hw' hn', ht, hp]
  rcases h with ⟨h1, h2, rfl⟩ | ⟨h1, h2, h3, rfl⟩ | ⟨h1, jwt, r', h2, h3, rfl⟩
  · exact .inl ⟨h1, h2, rfl⟩
  · exact .inr (.inl ⟨h1, h2, h3, rfl⟩)
  · refine .inr (.inr ⟨h1, jwt, r', h2, h3, ?_⟩)
    cases r' <;> rfl

/-- C87: in particular, whatever its times, a message is accepted exactly when it is accepted with other times, and comes back with
the times it has. -/
theorem C87_times (m : Message) (hw : m.WF C.f64) (hn : NotEnvelope m) (created expires : Option UInt64) (opts : UnpackOptions)
    (tr : List Event) (md : UnpackMetadata) :
    Runs (unpack C m.toJson.print opts) tr (.ok (m, md)) ↔
      Runs (unpack C { m with createdTime := created, expiresTime := expires }.toJson.print opts) tr
        (.ok ({ m with createdTime := created, expiresTime := expires }, md)) := by
  have hw' : ({ m with createdTime := created, expiresTime := expires } : Message).WF C.f64 := by
    cases hw; constructor <;> assumption
  exact ⟨fun h => C87_content m _ hw hw' hn hn rfl rfl opts opts tr _ h, fun h => C87_content _ m hw' hw hn hn rfl rfl opts opts tr _ h⟩

/-- An ordinary message that expired in the year 1970. -/
example : ({ World.msg with expiresTime := some 1 } : Message).WF Toy.crypto.f64 ∧ NotEnvelope { World.msg with expiresTime := some 1 } ∧
    ∃ md, Runs (unpack Toy.crypto World.msg.toJson.print {}) [] (.ok (World.msg, md)) :=
  ⟨by cases World.msg_wf; constructor <;> assumption, World.msg_notEnvelope, {},
    (unpack_message _ World.msg_wf World.msg_notEnvelope _ _ _).2 (.inr (.inl ⟨by decide, rfl, rfl, rfl⟩))⟩

end DIDComm
