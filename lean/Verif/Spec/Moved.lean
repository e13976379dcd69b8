import Verif.Spec.Reading

/-! # An extra header with the name of a standard one (C54) -/

set_option autoImplicit false

namespace DIDComm

/-- The message `m` with the value `v` as its standard header `k`. -/
inductive Takes (f64 : Str → Option Str) (m : Message) : Str → Value → Message → Prop
  | null (k : Str) (h : k ∈ [b!"from", b!"to", b!"thid", b!"pthid", b!"created_time", b!"expires_time", b!"from_prior", b!"attachments"]) :
    Takes f64 m k .null m
  | from_ (s : Str) : Takes f64 m b!"from" (.str s) { m with from_ := some s }
  | to (l : List Str) : Takes f64 m b!"to" (.arr (l.map .str)) { m with to := some l }
  | thid (s : Str) : Takes f64 m b!"thid" (.str s) { m with thid := some s }
  | pthid (s : Str) : Takes f64 m b!"pthid" (.str s) { m with pthid := some s }
  | createdTime (n : UInt64) : Takes f64 m b!"created_time" (.num (.pos n.toNat)) { m with createdTime := some n }
  | expiresTime (n : UInt64) : Takes f64 m b!"expires_time" (.num (.pos n.toNat)) { m with expiresTime := some n }
  | fromPrior (s : Str) : Takes f64 m b!"from_prior" (.str s) { m with fromPrior := some s }
  | attachments (v : Value) (t : Tree) (l : List Attachment) (h : JsonText t v.print) (hl : IsList (IsAttachment f64) t l) :
    Takes f64 m b!"attachments" v { m with attachments := some l }

end DIDComm
