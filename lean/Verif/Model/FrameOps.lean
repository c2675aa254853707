import Verif.Model.Mime
/-!
# Copying, joining and comparing frames (src/vortex_frame_factory.c)
-/
namespace Verif.Model

/-- `struct _VortexFrame`, src/vortex_frame_factory.c:226-278. A pointer to octets is `none` (NULL) or the
octets up to the size the structure records; in memory they are followed by a zero octet. `mime` is
`mime_headers`: NULL or the values of Content-Type and Content-Transfer-Encoding. Left out: `id`,
`ctx`, `channel_ref`, reference count, `more_char`, and which pointer owns the memory. -/
structure VFrame where
  type : FType
  channel : Int
  msgno : Int
  more : Bool
  seqno : Nat
  size : Int
  ansno : Int
  mimeSize : Int
  payload : Option (List Byte)
  content : Option (List Byte)
  mime : Option (Option (List Byte) × Option (List Byte))
  deriving DecidableEq, Repr

/-- `vortex_frame_create_full` and `vortex_frame_create_full_ref` without MIME values,
src/vortex_frame_factory.c:1013-1068 and :1112-1165 (`vortex_frame_create` calls the former). The
`more` argument is not stored. `octets` is what `payload` points to, at least `size` octets. -/
def createFull (type : FType) (channel msgno : Int) (_more : Bool) (seqno : Nat) (size ansno : Int)
    (octets : Option (List Byte)) : VFrame :=
  { type, channel, msgno, more := false, seqno, size, ansno, mimeSize := 0,
    payload := if size > 0 then octets.map (·.take size.toNat) else none,
    content := none, mime := none }

/-- `vortex_frame_copy`, src/vortex_frame_factory.c:1181-1241. -/
def VFrame.copy (f : VFrame) : VFrame :=
  match f.content with
  | some c =>
    let contentSize := f.size + f.mimeSize
    let r := createFull f.type f.channel f.msgno f.more f.seqno contentSize f.ansno (some c)
    { r with
      content := r.payload
      payload := r.payload.map (·.drop (contentSize - f.size).toNat)
      mimeSize := f.mimeSize
      size := f.size
      mime := f.mime }
  | none =>
    { createFull f.type f.channel f.msgno f.more f.seqno f.size f.ansno f.payload with mime := f.mime }

/-- `vortex_frame_are_joinable`, src/vortex_frame_factory.c:2324-2398. The sum is `unsigned int`. -/
def VFrame.joinable (a b : VFrame) : Bool :=
  if a.type ≠ b.type then false
  else if !a.more && !b.more then false
  else if !a.more && b.more then false
  else if a.channel ≠ b.channel then false
  else if a.msgno ≠ b.msgno then false
  else if a.ansno ≠ b.ansno then false
  else if u32 (a.seqno + a.size + a.mimeSize) ≠ b.seqno then false
  else true

/-- `__vortex_frame_join_common`, src/vortex_frame_factory.c:2190-2245; both variants give the same
frame. Simplifications: it also takes the MIME headers away from `a`, and `memcpy` from a NULL payload is
taken to copy nothing. -/
def VFrame.join (a b : VFrame) : Option VFrame :=
  if a.joinable b then
    some
      { type := a.type, channel := a.channel, msgno := a.msgno, more := a.more && b.more, seqno := a.seqno,
        size := a.size + b.size, ansno := a.ansno, mimeSize := a.mimeSize,
        payload := some ((a.payload.getD []) ++ (b.payload.getD [])), content := none, mime := a.mime }
  else none

/-- `vortex_frame_common_string_check`, src/vortex_frame_factory.c:2304-2313; `axl_cmp` compares C
strings. -/
def commonStringCheck : Option (List Byte) → Option (List Byte) → Bool
  | none, none => true
  | some a, some b => cstr a == cstr b
  | _, _ => false

/-- `vortex_frame_get_content_type`, src/vortex_frame_factory.c:2561-2576. -/
def VFrame.contentType (f : VFrame) : Option (List Byte) :=
  if f.mime.isSome || f.content.isSome then
    some ((f.mime.bind (·.1)).getD (lit "application/octet-stream"))
  else none

/-- `vortex_frame_get_transfer_encoding`, src/vortex_frame_factory.c:2591-2606. -/
def VFrame.transferEncoding (f : VFrame) : Option (List Byte) :=
  if f.mime.isSome || f.content.isSome then some ((f.mime.bind (·.2)).getD (lit "binary")) else none

/-- `vortex_frame_are_equal`, src/vortex_frame_factory.c:2411-2497. -/
def VFrame.equal (a b : VFrame) : Bool :=
  if a.type ≠ b.type then false
  else if a.more ≠ b.more then false
  else if a.channel ≠ b.channel then false
  else if a.msgno ≠ b.msgno then false
  else if a.seqno ≠ b.seqno then false
  else if a.size ≠ b.size then false
  else if a.ansno ≠ b.ansno then false
  else if !commonStringCheck a.contentType b.contentType then false
  else if !commonStringCheck a.transferEncoding b.transferEncoding then false
  else if !commonStringCheck a.payload b.payload then false
  else true

end Verif.Model
