import Verif.Proofs.Prefix
import Verif.Proofs.Trip

/-!
# Texts that `unpack` cannot read, and the ends of printed texts
-/

set_option autoImplicit false

namespace DIDComm

variable {C : Crypto}

/-- What `unpack` does with a text that cannot be read as anything: the first `InvalidState` stops it. -/
theorem unpack_unreadable {s : Str} {opts : UnpackOptions} {a b c : ErrorKind} (ha : a = .malformed ∨ a = .invalidState)
    (hb : b = .malformed ∨ b = .invalidState) (hc : c = .malformed ∨ c = .invalidState) (he : jweFromStr s = .error (.kind a)) (hs : jwsFromStr s = .error (.kind b))
    (hm : messageFromStr C s = .error (.kind c)) {tr : List Event} {r : Res (Message × UnpackMetadata)}
    (hr : Runs (unpack C s opts) tr r) :
    tr = [] ∧ r = .error (.kind (if a = .invalidState ∨ b = .invalidState then .invalidState else c)) := by
  rcases ha with rfl | rfl
  · rcases hb with rfl | rfl
    · rw [unpack_plain he hs] at hr
      unfold afterSign tryUnpackPlaintext at hr
      rw [hm] at hr
      rcases hc with rfl | rfl <;> exact runs_ret.1 hr
    · rw [unpack_not_jwe he, afterAuth_eq] at hr
      have : tryUnpackSign C s {} = .ret (.error (.kind .invalidState)) := by
        unfold tryUnpackSign; rw [hs]; rfl
      rw [this] at hr
      exact runs_ret.1 hr
  · have ha : tryUnpackAnoncrypt C s opts {} = .ret (.error (.kind .invalidState)) := by
      unfold tryUnpackAnoncrypt
      rw [he]
      rfl
    rw [unpack_anon_error ha] at hr
    exact runs_ret.1 hr

theorem jsonText_print (v : Value) (hv : v.NumsOk) : JsonText v.tree v.print := (parseJson_iff _ _).1 (parseJson_print v hv)

theorem printMembers_end : ∀ l : List (Str × Value), ∃ p, Value.printMembers l = p ++ [0x7D]
  | [] => ⟨[], rfl⟩
  | (k, v) :: l => by
    obtain ⟨p, hp⟩ := printMembers_end l
    exact ⟨0x2C :: (quoteStr k ++ 0x3A :: (v.print ++ p)), by rw [Value.printMembers, hp]; simp only [List.append_assoc, List.cons_append]⟩

/-- The text of an object ends with a brace. -/
theorem print_end : ∀ l : List (Str × Value), ∃ p, (Value.obj l).print = p ++ [0x7D]
  | [] => ⟨[0x7B], rfl⟩
  | (k, v) :: l => by
    obtain ⟨p, hp⟩ := printMembers_end l
    exact ⟨0x7B :: (quoteStr k ++ 0x3A :: (v.print ++ p)), by rw [Value.print, hp]; simp only [List.append_assoc, List.cons_append]⟩

/-- The end of the text of an object is not white space. -/
theorem print_obj_cut {l : List (Str × Value)} {s x : Str} (h : (Value.obj l).print = s ++ x) (hx : x ≠ []) : ¬ Ws x := by
  intro hw
  obtain ⟨p, hp⟩ := print_end l
  rw [hp, ← List.dropLast_concat_getLast hx, ← List.append_assoc] at h
  have := List.append_inj_right' h rfl
  have hb := hw _ (List.getLast_mem hx)
  rw [← List.cons.inj this |>.1] at hb
  revert hb
  decide

end DIDComm
