import Verif.Model.Serde

/-! # Builders — /repo/src/message/message.rs, attachment.rs, from_prior/mod.rs -/

set_option autoImplicit false

namespace DIDComm

/-- `MessageBuilder` — /repo/src/message/message.rs L103-116. -/
structure MessageBuilder where
  id : Str
  type_ : Str
  body : Value
  from_ : Option Str := none
  to : Option (List Str) := none
  thid : Option Str := none
  pthid : Option Str := none
  extraHeaders : List (Str × Value) := []
  createdTime : Option UInt64 := none
  expiresTime : Option UInt64 := none
  fromPrior : Option Str := none
  attachments : Option (List Attachment) := none

namespace MessageBuilder

/-- `MessageBuilder::new`, `Message::build` — /repo/src/message/message.rs L84-86, L119-134. -/
def new (id type_ : Str) (body : Value) : MessageBuilder := { id := id, type_ := type_, body := body }

/-- `to` — /repo/src/message/message.rs L136-144. -/
def addTo (b : MessageBuilder) (t : Str) : MessageBuilder :=
  match b.to with
  | some l => { b with to := some (l ++ [t]) }
  | none => { b with to := some [t] }

/-- `to_many` — /repo/src/message/message.rs L146-155. -/
def toMany (b : MessageBuilder) (t : List Str) : MessageBuilder :=
  match b.to with
  | some l => { b with to := some (l ++ t) }
  | none => { b with to := some t }

/-- `from` — /repo/src/message/message.rs L157-160. -/
def setFrom (b : MessageBuilder) (s : Str) : MessageBuilder := { b with from_ := some s }

/-- `thid` — /repo/src/message/message.rs L162-165. -/
def setThid (b : MessageBuilder) (s : Str) : MessageBuilder := { b with thid := some s }

/-- `pthid` — /repo/src/message/message.rs L167-170. -/
def setPthid (b : MessageBuilder) (s : Str) : MessageBuilder := { b with pthid := some s }

/-- `header` — /repo/src/message/message.rs L172-175. -/
def header (b : MessageBuilder) (k : Str) (v : Value) : MessageBuilder :=
  { b with extraHeaders := hmInsert k v b.extraHeaders }

/-- `created_time` — /repo/src/message/message.rs L177-180. -/
def setCreatedTime (b : MessageBuilder) (t : UInt64) : MessageBuilder := { b with createdTime := some t }

/-- `expires_time` — /repo/src/message/message.rs L182-185. -/
def setExpiresTime (b : MessageBuilder) (t : UInt64) : MessageBuilder := { b with expiresTime := some t }

/-- `from_prior` — /repo/src/message/message.rs L187-190. -/
def setFromPrior (b : MessageBuilder) (s : Str) : MessageBuilder := { b with fromPrior := some s }

/-- `attachment` — /repo/src/message/message.rs L192-200. -/
def addAttachment (b : MessageBuilder) (a : Attachment) : MessageBuilder :=
  match b.attachments with
  | some l => { b with attachments := some (l ++ [a]) }
  | none => { b with attachments := some [a] }

/-- `attachments` — /repo/src/message/message.rs L202-211. -/
def addAttachments (b : MessageBuilder) (a : List Attachment) : MessageBuilder :=
  match b.attachments with
  | some l => { b with attachments := some (l ++ a) }
  | none => { b with attachments := some a }

/-- `finalize` — /repo/src/message/message.rs L213-229. -/
def finalize (b : MessageBuilder) : Message :=
  { id := b.id, typ := plaintextTyp, type_ := b.type_, body := b.body, to := b.to, thid := b.thid,
    pthid := b.pthid, from_ := b.from_, extraHeaders := b.extraHeaders, createdTime := b.createdTime,
    expiresTime := b.expiresTime, fromPrior := b.fromPrior, attachments := b.attachments }

end MessageBuilder

/-- `AttachmentBuilder` — /repo/src/message/attachment.rs L73-82. -/
structure AttachmentBuilder where
  data : AttachmentData
  id : Option Str := none
  description : Option Str := none
  filename : Option Str := none
  mediaType : Option Str := none
  format : Option Str := none
  lastmodTime : Option UInt64 := none
  byteCount : Option UInt64 := none

namespace AttachmentBuilder

/-- `Attachment::base64` — /repo/src/message/attachment.rs L50-54. -/
def base64 (b : Str) : AttachmentBuilder := { data := .base64 b none }

/-- `Attachment::json` — /repo/src/message/attachment.rs L56-60. -/
def json (v : Value) : AttachmentBuilder := { data := .json v none }

/-- `Attachment::links` — /repo/src/message/attachment.rs L62-70. -/
def links (l : List Str) (h : Str) : AttachmentBuilder := { data := .links l h none }

/-- `id` — /repo/src/message/attachment.rs L98-101. -/
def setId (b : AttachmentBuilder) (s : Str) : AttachmentBuilder := { b with id := some s }

/-- `description` — /repo/src/message/attachment.rs L103-106. -/
def setDescription (b : AttachmentBuilder) (s : Str) : AttachmentBuilder := { b with description := some s }

/-- `filename` — /repo/src/message/attachment.rs L108-111. -/
def setFilename (b : AttachmentBuilder) (s : Str) : AttachmentBuilder := { b with filename := some s }

/-- `media_type` — /repo/src/message/attachment.rs L113-116. -/
def setMediaType (b : AttachmentBuilder) (s : Str) : AttachmentBuilder := { b with mediaType := some s }

/-- `format` — /repo/src/message/attachment.rs L118-121. -/
def setFormat (b : AttachmentBuilder) (s : Str) : AttachmentBuilder := { b with format := some s }

/-- `lastmod_time` — /repo/src/message/attachment.rs L123-126. -/
def setLastmodTime (b : AttachmentBuilder) (t : UInt64) : AttachmentBuilder := { b with lastmodTime := some t }

/-- `byte_count` — /repo/src/message/attachment.rs L128-131. -/
def setByteCount (b : AttachmentBuilder) (t : UInt64) : AttachmentBuilder := { b with byteCount := some t }

/-- `jws` — /repo/src/message/attachment.rs L133-141: the signature is stored in whichever variant the data is. -/
def setJws (b : AttachmentBuilder) (j : Str) : AttachmentBuilder :=
  match b.data with
  | .base64 x _ => { b with data := .base64 x (some j) }
  | .json x _ => { b with data := .json x (some j) }
  | .links x h _ => { b with data := .links x h (some j) }

/-- `finalize` — /repo/src/message/attachment.rs L143-154. -/
def finalize (b : AttachmentBuilder) : Attachment :=
  { data := b.data, id := b.id, description := b.description, filename := b.filename,
    mediaType := b.mediaType, format := b.format, lastmodTime := b.lastmodTime, byteCount := b.byteCount }

end AttachmentBuilder

/-- `FromPriorBuilder` — /repo/src/message/from_prior/mod.rs L38-46. -/
structure FromPriorBuilder where
  iss : Str
  sub : Str
  aud : Option Str := none
  exp : Option UInt64 := none
  nbf : Option UInt64 := none
  iat : Option UInt64 := none
  jti : Option Str := none

namespace FromPriorBuilder

/-- `FromPrior::build` — /repo/src/message/from_prior/mod.rs L33-35, L49-59. -/
def new (iss sub : Str) : FromPriorBuilder := { iss := iss, sub := sub }

/-- `aud` — /repo/src/message/from_prior/mod.rs L61-64. -/
def setAud (b : FromPriorBuilder) (s : Str) : FromPriorBuilder := { b with aud := some s }

/-- `exp` — /repo/src/message/from_prior/mod.rs L66-69. -/
def setExp (b : FromPriorBuilder) (t : UInt64) : FromPriorBuilder := { b with exp := some t }

/-- `nbf` — /repo/src/message/from_prior/mod.rs L71-74. -/
def setNbf (b : FromPriorBuilder) (t : UInt64) : FromPriorBuilder := { b with nbf := some t }

/-- `iat` — /repo/src/message/from_prior/mod.rs L76-79. -/
def setIat (b : FromPriorBuilder) (t : UInt64) : FromPriorBuilder := { b with iat := some t }

/-- `jti` — /repo/src/message/from_prior/mod.rs L81-84. -/
def setJti (b : FromPriorBuilder) (s : Str) : FromPriorBuilder := { b with jti := some s }

/-- `finalize` — /repo/src/message/from_prior/mod.rs L86-96. -/
def finalize (b : FromPriorBuilder) : FromPrior :=
  { iss := b.iss, sub := b.sub, aud := b.aud, exp := b.exp, nbf := b.nbf, iat := b.iat, jti := b.jti }

end FromPriorBuilder

end DIDComm
