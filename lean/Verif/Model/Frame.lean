import Verif.Model.Itoa
/-!
# BEEP frame building (src/vortex_frame_factory.c)
-/
namespace Verif.Model

/-- `VortexFrameType` (src/vortex_types.h) without `UNKNOWN`. -/
inductive FType
  | msg | rpy | ans | err | nul | seq
  deriving DecidableEq, Repr

/-- The three letters chosen in `vortex_frame_build_up_from_params_s_buffer`,
src/vortex_frame_factory.c:718-743, and `"SEQ"` in
`vortex_frame_seq_build_up_from_params_buffer`, :546. -/
def FType.letters : FType → List Byte
  | .msg => lit "MSG"
  | .rpy => lit "RPY"
  | .ans => lit "ANS"
  | .err => lit "ERR"
  | .nul => lit "NUL"
  | .seq => lit "SEQ"

/-- The part of `struct _VortexFrame` (src/vortex_frame_factory.c) used here: the header
fields and the payload. For SEQ frames `seqno` is the ackno and `size` the window. -/
structure Frame where
  type : FType
  channel : Int
  msgno : Int
  more : Bool
  seqno : Nat
  size : Int
  ansno : Int
  payload : List Byte
  deriving DecidableEq, Repr

/-- The idiom `result = vortex_support_itoa (x, buffer + position, 10); if (result == -1) return -1;
position += result;` of `vortex_frame_build_header` (src/vortex_frame_factory.c:374-378 and
similar): the octets added to the buffer. `none`: the header builder gives up. The argument is
converted to `unsigned int` by the call. Simplification: the ten bytes at `buffer + position` are taken to
exist (property C05 is about that). -/
def itoaStr (x : Int) : Option (List Byte) :=
  match itoa (u32 x) (List.replicate 10 0) 10 with
  | none => none
  | some (r, buf) => if r = -1 then none else some (buf.take r.toNat)

/-- `"\x0D\x0A"`. -/
def crlf : List Byte := [CR, LF]

/-- `vortex_frame_build_header`, src/vortex_frame_factory.c:349-477, as the list of octets written
from `buffer[0]` on; its length is both `*real_size` and the returned value. `none` is `return -1`.
The C code only ever appends at `position`, so a list is an exact picture of the writes.
`content_type` and `transfer_encoding` are C strings or NULL. -/
def buildHeader (type : FType) (channel msgno : Int) (more : Bool) (seqno : Nat) (size ansno : Int)
    (contentType transferEncoding : Option (List Byte)) : Option (List Byte) := do
  let ch ← itoaStr channel
  let mn ← itoaStr msgno
  let sq ← itoaStr seqno
  let base := type.letters ++ [SP] ++ ch ++ [SP] ++ mn ++ [SP]
  if type = .seq then
    return base ++ sq ++ crlf
  let sz ← itoaStr size
  let an ← if ansno ≥ 0 then (do let a ← itoaStr ansno; pure ([SP] ++ a)) else pure []
  let ct := match contentType with
    | some v => lit "Content-Type: " ++ v ++ crlf
    | none => []
  let te := match transferEncoding with
    | some v => lit "Content-Transfer-Encoding: " ++ v ++ crlf
    | none => []
  let last := if contentType.isSome || transferEncoding.isSome then crlf else []
  return base ++ [if more then STAR else DOT, SP] ++ sq ++ [SP] ++ sz ++ an ++ crlf ++ ct ++ te ++ last

/-- `vortex_frame_seq_build_up_from_params_buffer`, src/vortex_frame_factory.c:531-566 with a buffer:
`msgno` carries the ackno and `seqno` the window. -/
def buildSeq (channel : Int) (ackno : Int) (window : Int) : Option (List Byte) :=
  buildHeader .seq channel ackno false (u32 window) 0 (-1) none none

/-- `axl_stream_cmp (s, prefix, n)` with `n` the length of the literal. -/
def startsWith (s p : List Byte) : Bool := s.take p.length == p

/-- `header_size` of `vortex_frame_build_up_from_params_s_buffer`,
src/vortex_frame_factory.c:748-767: the payload size announced in the header. -/
def announcedSize (size : Int) (contentType transferEncoding : Option (List Byte)) : Int :=
  let placeCt := match contentType with
    | some v => !startsWith v (lit "application/octet-stream")
    | none => false
  let placeTe := match transferEncoding with
    | some v => !startsWith v (lit "binary")
    | none => false
  size + (if placeCt then 16 + ((contentType.getD []).length : Int) else 0)
    + (if placeTe then 29 + ((transferEncoding.getD []).length : Int) else 0)
    + (if placeTe || placeCt then 2 else 0)

/-- Outcome of `vortex_frame_build_up_from_params_s_buffer`. -/
inductive BuildResult
  /-- frame built: all octets written including the trailer (the NUL terminator after them is
  written at offset `frame.length`); `frame.length` is `*frame_size`. -/
  | built (octets : List Byte)
  /-- `NULL` returned, `*frame_size = -1`. -/
  | tooSmall
  deriving DecidableEq, Repr

/-- `vortex_frame_build_up_from_params_s_buffer` with a buffer and a non-SEQ type,
src/vortex_frame_factory.c:692-859. Simplification: `vortex_frame_build_header` returning -1
(impossible, see `C01`) is reported as `tooSmall`. Only the header is compared against the buffer
size (:792); payload, trailer and NUL are copied without check (:841-847). -/
def buildFrame (type : FType) (channel msgno : Int) (more : Bool) (seqno : Nat)
    (ansno : Int) (contentType transferEncoding : Option (List Byte)) (payload : List Byte)
    (bufferSize : Nat) : BuildResult :=
  let size : Int := payload.length
  match buildHeader type channel msgno more seqno (announcedSize size contentType transferEncoding)
      (if type = .ans then ansno else -1) contentType transferEncoding with
  | none => .tooSmall
  | some h => if h.length ≥ bufferSize then .tooSmall else .built (h ++ payload ++ lit "END" ++ crlf)

end Verif.Model
