import Verif.Model.Frame
/-!
# MIME headers: rendering, parsing and header store

`src/vortex_channel.c` (rendering) and `src/vortex_frame_factory.c` (parsing, storing).
-/
namespace Verif.Model

/-- `':'`. -/
def COLON : Byte := 58
/-- `'\t'`. -/
def TAB : Byte := 9

/-! ## Rendering -/

/-- `memcpy (buffer + off, bytes, n)` into a buffer that is exactly `buf`; `none` when it writes
outside of it. -/
def memcpyAt (buf : List Byte) (off : Nat) (bytes : List Byte) : Option (List Byte) :=
  if off + bytes.length ≤ buf.length then
    some (buf.take off ++ bytes ++ buf.drop (off + bytes.length))
  else none

/-- The MIME related fields of `struct _VortexChannel` (src/vortex_channel.c:64-400):
`automatic_mime` after the configuration levels are resolved, `mime_type`, `transfer_encoding`
(C strings or NULL). -/
structure MimeConf where
  automatic : Bool
  type : Option (List Byte)
  encoding : Option (List Byte)
  deriving DecidableEq, Repr

/-- `process_mime_configuration`, src/vortex_channel.c:490-514: which of the channel, profile
and library settings (0 undefined, 1 enabled, 2 disabled) decides; returns whether headers are
added. -/
def automaticMime (channel profile library : Nat) : Bool :=
  if channel ≠ 0 then channel != 2
  else if profile ≠ 0 then profile != 2
  else library != 2

/-- `mime_type != NULL && !axl_cmp (mime_type, "application/octet-stream")`. -/
def showsType (c : MimeConf) : Bool :=
  match c.type with
  | none => false
  | some t => t != lit "application/octet-stream"

/-- `transfer_encoding != NULL && !axl_cmp (transfer_encoding, "binary")`. -/
def showsEncoding (c : MimeConf) : Bool :=
  match c.encoding with
  | none => false
  | some e => e != lit "binary"

/-- `__vortex_channel_get_mime_headers_size`, src/vortex_channel.c:467-544. Simplification: `int`
overflow for strings of 2 GB is ignored. -/
def mimeHeadersSize (c : MimeConf) : Nat :=
  if c.automatic then
    (if showsType c then 16 + (c.type.getD []).length else 0) +
    (if showsEncoding c then 29 + (c.encoding.getD []).length else 0) + 2
  else 0

/-- `__vortex_channel_get_mime_headers`, src/vortex_channel.c:560-607: writes the headers at the
beginning of `buf`. `none`: it writes outside of the buffer or takes the length of NULL. The line
after `Content-Transfer-Encoding: ` copies `mime_type` (593-596), as the code does. -/
def writeMimeHeaders (c : MimeConf) (buf : List Byte) : Option (List Byte) := do
  let (buf, size) ←
    if showsType c then do
      let t := c.type.getD []
      let b ← memcpyAt buf 0 (lit "Content-Type: ")
      let b ← memcpyAt b 14 t
      let b ← memcpyAt b (14 + t.length) crlf
      pure (b, 16 + t.length)
    else pure (buf, 0)
  let (buf, size) ←
    if showsEncoding c then do
      let b ← memcpyAt buf size (lit "Content-Transfer-Encoding: ")
      let t ← c.type
      let b ← memcpyAt b (size + 27) t
      let b ← memcpyAt b (size + 27 + t.length) crlf
      pure (b, size + (29 + (c.encoding.getD []).length))
    else pure (buf, size)
  memcpyAt buf size crlf

/-- The content queued for a message, src/vortex_channel.c:2527-2556 and :3108-3137: the buffer of
`message_size + mime_header_size + 1` zeroed octets (`axl_new`), headers, message. The last octet is
not part of the content. -/
def mimeContent (c : MimeConf) (message : List Byte) : Option (List Byte) := do
  let n := mimeHeadersSize c
  let buf := List.replicate (message.length + n + 1) 0
  let buf ← if n > 0 then writeMimeHeaders c buf else some buf
  let buf ← memcpyAt buf n message
  some (buf.take (message.length + n))

/-! ## Parsing -/

/-- What follows the payload in the allocation of a frame handed over by the reader as it came:
the trailer `END\r\n` whose first octet was overwritten with zero
(src/vortex_frame_factory.c:1839, :1901-1902; the sixth octet, never written, is left out). -/
def wireTail : List Byte := [NUL, 78, 68, CR, LF]

/-- What follows the payload in the allocation of a frame built from fragments
(`axl_new (unsigned char, size + 1)`, src/vortex_channel.c:2111) or created by the user
(src/vortex_frame_factory.c:1050). -/
def builtTail : List Byte := [NUL]

/-- `payload[i]` for a payload `p` whose allocation continues with `tl`; `none` is a read outside of the
allocation. -/
def byteAt (p tl : List Byte) (i : Nat) : Option Byte := (p ++ tl)[i]?

/-- The loop over the header name, src/vortex_frame_factory.c:3074-3082. It only reads
`payload[iterator]` when `iterator < frame->size`. `fuel` is any number `≥ size - iterator`. -/
def nameEnd (p : List Byte) (mark : Nat) : Nat → Nat → Nat
  | 0, it => it
  | fuel + 1, it =>
    match p[it]? with
    | none => it
    | some b =>
      if b ≠ COLON ∧ b ≠ SP ∧ b ≠ TAB ∧ b.toNat ≤ 126 ∧ 33 ≤ b.toNat ∧ it - mark < 995 then
        nameEnd p mark fuel (it + 1)
      else it

/-- `while (iterator < frame->size && payload[iterator] == ' ') iterator++`,
src/vortex_frame_factory.c:3139-3140. -/
def skipSpaces (p : List Byte) : Nat → Nat → Nat
  | 0, it => it
  | fuel + 1, it => if p[it]? = some SP then skipSpaces p fuel (it + 1) else it

/-- Is the octet at `i` neither blank nor tab (`payload[i] != ' ' && payload[i] != '\t'`)? `none`:
outside of the allocation. -/
def notBlankAt (p tl : List Byte) (i : Nat) : Option Bool :=
  (byteAt p tl i).map fun b => decide (b ≠ SP ∧ b ≠ TAB)

/-- The loop over the header content, src/vortex_frame_factory.c:3156-3179: the position where it
stops. `none`: a read outside of the allocation (also when it is entered beyond the end, where
nothing stops it). -/
def contentEnd (p tl : List Byte) : Nat → Nat → Option Nat
  | 0, _ => none
  | fuel + 1, it =>
    match if it + 1 < p.length ∧ p[it]? = some CR ∧ p[it + 1]? = some LF then notBlankAt p tl (it + 2)
      else some false with
    | none => none
    | some true => some it
    | some false =>
      match if it < p.length ∧ p[it]? = some LF then notBlankAt p tl (it + 1) else some false with
      | none => none
      | some true => some it
      | some false => if it = p.length then some it else contentEnd p tl fuel (it + 1)

/-- White space for `axl_stream_trim` (axl library, not in /repo). -/
def isWhite (b : Byte) : Bool := b == SP || b == TAB || b == CR || b == LF

/-- `axl_stream_trim` (axl library, not in /repo): removes leading and trailing white space of a C
string. -/
def trim (s : List Byte) : List Byte :=
  ((s.dropWhile isWhite).reverse.dropWhile isWhite).reverse

/-- What a C string function sees of a copied octet sequence: everything before the first zero. -/
def cstr (s : List Byte) : List Byte := s.takeWhile (· ≠ NUL)

/-- Result of reading one header. -/
inductive HeaderRead
  /-- a read outside of the allocation -/
  | outside
  /-- `return -1` -/
  | fail
  /-- `return 1`, with the header and the new `*caller_iterator` -/
  | ok (name content : List Byte) (next : Nat)
  deriving DecidableEq, Repr

/-- `vortex_frame_read_mime_header`, src/vortex_frame_factory.c:3059-3211. Storing the header is
`MimeStatus.add`. -/
def readMimeHeader (p tl : List Byte) (it : Nat) : HeaderRead :=
  let mark := it
  let it := nameEnd p mark p.length it
  match byteAt p tl it with
  | none => .outside
  | some b =>
    if b.toNat > 126 ∨ b.toNat < 33 then .fail
    else if it - mark ≥ 995 then .fail
    else if it = p.length then .fail
    else
      let name := (p.drop mark).take (it - mark)
      let it := skipSpaces p p.length it
      match byteAt p tl it with
      | none => .outside
      | some b =>
        if b ≠ COLON then .fail
        else
          let mark := it + 1
          match contentEnd p tl (p.length + 1) it with
          | none => .outside
          | some e =>
            let content := (p.drop mark).take (e - mark)
            match byteAt p tl e with
            | none => .outside
            | some b => .ok (cstr name) (trim (cstr content)) (if b = LF then e + 1 else e + 2)

/-- Result of MIME processing. -/
inductive MimeResult
  /-- a read outside of the allocation -/
  | outside
  /-- `return axl_false`: not MIME content, nothing changes -/
  | notMime
  /-- `return axl_true`: the headers found, and how many octets of the content are headers -/
  | ok (headers : List (List Byte × List Byte)) (size : Nat)
  deriving DecidableEq, Repr

/-- The loops of `vortex_frame_mime_process`, src/vortex_frame_factory.c:3295-3353. The outer loop is
never entered a second time, because the inner one only ends at a line break. -/
def mimeLoop (p tl : List Byte) : Nat → Nat → List (List Byte × List Byte) → MimeResult
  | 0, _, _ => .outside
  | fuel + 1, it, acc =>
    match byteAt p tl it with
    | none => .outside
    | some b =>
      if b = LF then .ok acc (it + 1)
      else if b = CR ∧ byteAt p tl (it + 1) = none then .outside
      else if b = CR ∧ byteAt p tl (it + 1) = some LF then .ok acc (it + 2)
      else
        match readMimeHeader p tl it with
        | .outside => .outside
        | .fail => .notMime
        | .ok name content next => mimeLoop p tl fuel next (acc ++ [(name, content)])

/-- `vortex_frame_mime_process`, src/vortex_frame_factory.c:3247-3363, for a frame that is not SEQ.
`tl` is what follows the payload in its allocation. -/
def mimeProcess (tl p : List Byte) : MimeResult :=
  if (p.length ≥ 2 ∧ p[0]? = some CR ∧ p[1]? = some LF) ∨ (p.length = 1 ∧ p[0]? = some LF) then
    .ok [] (if p[0]? = some LF then 1 else 2)
  else if p.length = 0 then .notMime
  else mimeLoop p tl (p.length + 1) 0 []

/-- `frame->payload` after MIME processing (`vortex_frame_reconfigure_mime`,
src/vortex_frame_factory.c:3218-3235). `none`: the processing reads outside of the content. -/
def mimeBody (tl p : List Byte) : Option (List Byte) :=
  match mimeProcess tl p with
  | .outside => none
  | .notMime => some p
  | .ok _ n => some (p.drop n)

/-! ## The header store -/

/-- `tolower` on ASCII letters, as used by `axl_casecmp`. -/
def lower (b : Byte) : Byte := if 65 ≤ b.toNat ∧ b.toNat ≤ 90 then b + 32 else b

/-- `axl_casecmp` (axl library): equality of C strings ignoring case. -/
def casecmp (a b : List Byte) : Bool := a.map lower == b.map lower

/-- The five header names with a direct reference in `struct _VortexMimeStatus`
(src/vortex_frame_factory.c:86-90). -/
def commonNames : List (List Byte) :=
  [lit "content-type", lit "content-transfer-encoding", lit "mime-version", lit "content-id",
   lit "content-description"]

/-- Which direct reference a name selects (src/vortex_frame_factory.c:177-208). -/
def commonIndex (name : List Byte) : Option Nat :=
  if casecmp name (lit "content-type") then some 0
  else if casecmp name (lit "content-transfer-encoding") then some 1
  else if casecmp name (lit "mime-version") then some 2
  else if casecmp name (lit "content-id") then some 3
  else if casecmp name (lit "content-description") then some 4
  else none

/-- One `VortexMimeHeader`: name and content; the `next` pointers are the tails of the lists
below. -/
structure MHeader where
  name : List Byte
  content : List Byte
  deriving DecidableEq, Repr

/-- `struct _VortexMimeStatus` and `frame->mime_headers_size`. `fast i` is the chain that starts at the
`i`-th direct reference; `chains` the chains hanging from `first`, in order. Simplification: headers
with a direct reference are also linked from `first`, but `vortex_frame_mime_find` never looks for
them there, so they are left out. -/
structure MimeStatus where
  fast : Nat → List MHeader
  chains : List (List MHeader)
  size : Int

/-- `vortex_frame_mime_status_new`, src/vortex_frame_factory.c:107-135. -/
def MimeStatus.init : MimeStatus := ⟨fun _ => [], [], 0⟩

/-- The walk over `first` in `vortex_frame_mime_find`, src/vortex_frame_factory.c:211-220. -/
def findChain (name : List Byte) : List (List MHeader) → List MHeader
  | [] => []
  | [] :: cs => findChain name cs
  | (h :: t) :: cs => if casecmp name h.name then h :: t else findChain name cs

/-- `vortex_frame_mime_find`, src/vortex_frame_factory.c:194-224, as the chain of the header found
(`[]` is NULL). -/
def MimeStatus.find (s : MimeStatus) (name : List Byte) : List MHeader :=
  match commonIndex name with
  | some i => s.fast i
  | none => findChain name s.chains

/-- Append a header at the end of the first chain whose head has that name
(src/vortex_frame_factory.c:3443-3450). -/
def appendChain (h : MHeader) : List (List MHeader) → List (List MHeader)
  | [] => []
  | [] :: cs => [] :: appendChain h cs
  | (g :: t) :: cs =>
    if casecmp h.name g.name then (g :: t ++ [h]) :: cs else (g :: t) :: appendChain h cs

/-- `vortex_frame_set_mime_header` with a content, src/vortex_frame_factory.c:3433-3473. The new header
goes to the end of the chain found, or becomes the first one; a direct reference is then moved
to it. -/
def MimeStatus.set (s : MimeStatus) (name content : List Byte) : MimeStatus :=
  let h : MHeader := ⟨name, content⟩
  let size := s.size + name.length + content.length + 2 + (if s.size = 0 then 2 else 0)
  match commonIndex name with
  | some i => { s with fast := fun j => if j = i then [h] else s.fast j, size }
  | none =>
    if findChain name s.chains = [] then { s with chains := [h] :: s.chains, size }
    else { s with chains := appendChain h s.chains, size }

/-- Cut the first chain with that name after its first element. -/
def cutChain (name : List Byte) : List (List MHeader) → List (List MHeader)
  | [] => []
  | [] :: cs => [] :: cutChain name cs
  | (g :: t) :: cs => if casecmp name g.name then [g] :: cs else (g :: t) :: cutChain name cs

/-- `vortex_frame_set_mime_header` with NULL content, src/vortex_frame_factory.c:3406-3429. As the code
does, it clears the `next` pointer of the header found and leaves the header itself linked. -/
def MimeStatus.remove (s : MimeStatus) (name : List Byte) : MimeStatus :=
  match s.find name with
  | [] => s
  | h :: _ =>
    let size := s.size - (name.length + h.content.length + 2)
    let size := if size = 2 then 0 else size
    match commonIndex name with
    | some i => { s with fast := fun j => if j = i then (s.fast j).take 1 else s.fast j, size }
    | none => { s with chains := cutChain name s.chains, size }

/-- A user's operation on the headers of a frame. -/
inductive MimeOp
  | set (name content : List Byte)
  | remove (name : List Byte)
  deriving DecidableEq, Repr

/-- Effect of an operation. -/
def MimeStatus.apply (s : MimeStatus) : MimeOp → MimeStatus
  | .set n c => s.set n c
  | .remove n => s.remove n

/-- `vortex_frame_get_mime_header` and the walk with `vortex_frame_mime_header_next`
(src/vortex_frame_factory.c:3532-3616): the contents of the headers with that name. -/
def MimeStatus.values (s : MimeStatus) (name : List Byte) : List (List Byte) :=
  (s.find name).map (·.content)

end Verif.Model
