import Verif.Model.Builders

/-! # Calls of the builders, as data, and what a sequence of calls means -/

set_option autoImplicit false

namespace DIDComm

/-- A setter call on a message builder. -/
inductive MsgCall
  | to (t : Str) | toMany (t : List Str) | from_ (s : Str) | thid (s : Str) | pthid (s : Str)
  | header (k : Str) (v : Value) | createdTime (t : UInt64) | expiresTime (t : UInt64)
  | fromPrior (s : Str) | attachment (a : Attachment) | attachments (a : List Attachment)

/-- Perform a call. -/
def MsgCall.run (b : MessageBuilder) : MsgCall → MessageBuilder
  | .to t => b.addTo t
  | .toMany t => b.toMany t
  | .from_ s => b.setFrom s
  | .thid s => b.setThid s
  | .pthid s => b.setPthid s
  | .header k v => b.header k v
  | .createdTime t => b.setCreatedTime t
  | .expiresTime t => b.setExpiresTime t
  | .fromPrior s => b.setFromPrior s
  | .attachment a => b.addAttachment a
  | .attachments a => b.addAttachments a

/-- The last argument selected by `f`. -/
def lastArg {α β : Type} (f : α → Option β) (calls : List α) : Option β := (calls.filterMap f).getLast?

/-- All arguments selected by `f`, in order; `none` when there is no such call. -/
def allArgs {α β : Type} (f : α → Option (List β)) (calls : List α) : Option (List β) :=
  if calls.filterMap f = [] then none else some (calls.filterMap f).flatten

/-- Select the calls setting one header. -/
def MsgCall.asHeader (k : Str) : MsgCall → Option Value
  | .header k' v => if k' = k then some v else none
  | _ => none
def MsgCall.asFrom : MsgCall → Option Str | .from_ s => some s | _ => none
def MsgCall.asThid : MsgCall → Option Str | .thid s => some s | _ => none
def MsgCall.asPthid : MsgCall → Option Str | .pthid s => some s | _ => none
def MsgCall.asCreated : MsgCall → Option UInt64 | .createdTime s => some s | _ => none
def MsgCall.asExpires : MsgCall → Option UInt64 | .expiresTime s => some s | _ => none
def MsgCall.asFromPrior : MsgCall → Option Str | .fromPrior s => some s | _ => none
/-- Select the recipients added by a call. -/
def MsgCall.asTo : MsgCall → Option (List Str) | .to t => some [t] | .toMany t => some t | _ => none
/-- Select the attachments added by a call. -/
def MsgCall.asAttachments : MsgCall → Option (List Attachment)
  | .attachment a => some [a] | .attachments a => some a | _ => none

/-- A setter call on an attachment builder. -/
inductive AttCall
  | id (s : Str) | description (s : Str) | filename (s : Str) | mediaType (s : Str) | format (s : Str)
  | lastmodTime (t : UInt64) | byteCount (t : UInt64) | jws (s : Str)

/-- Perform a call. -/
def AttCall.run (b : AttachmentBuilder) : AttCall → AttachmentBuilder
  | .id s => b.setId s
  | .description s => b.setDescription s
  | .filename s => b.setFilename s
  | .mediaType s => b.setMediaType s
  | .format s => b.setFormat s
  | .lastmodTime t => b.setLastmodTime t
  | .byteCount t => b.setByteCount t
  | .jws s => b.setJws s

def AttCall.asId : AttCall → Option Str | .id s => some s | _ => none
def AttCall.asDescription : AttCall → Option Str | .description s => some s | _ => none
def AttCall.asFilename : AttCall → Option Str | .filename s => some s | _ => none
def AttCall.asMediaType : AttCall → Option Str | .mediaType s => some s | _ => none
def AttCall.asFormat : AttCall → Option Str | .format s => some s | _ => none
def AttCall.asLastmod : AttCall → Option UInt64 | .lastmodTime s => some s | _ => none
def AttCall.asByteCount : AttCall → Option UInt64 | .byteCount s => some s | _ => none
def AttCall.asJws : AttCall → Option Str | .jws s => some s | _ => none

/-- A setter call on a `from_prior` builder. -/
inductive FpCall
  | aud (s : Str) | exp (t : UInt64) | nbf (t : UInt64) | iat (t : UInt64) | jti (s : Str)

/-- Perform a call. -/
def FpCall.run (b : FromPriorBuilder) : FpCall → FromPriorBuilder
  | .aud s => b.setAud s
  | .exp t => b.setExp t
  | .nbf t => b.setNbf t
  | .iat t => b.setIat t
  | .jti s => b.setJti s

def FpCall.asAud : FpCall → Option Str | .aud s => some s | _ => none
def FpCall.asExp : FpCall → Option UInt64 | .exp s => some s | _ => none
def FpCall.asNbf : FpCall → Option UInt64 | .nbf s => some s | _ => none
def FpCall.asIat : FpCall → Option UInt64 | .iat s => some s | _ => none
def FpCall.asJti : FpCall → Option Str | .jti s => some s | _ => none

end DIDComm
