import Verif.Model.Frame
/-!
# BEEP header parsing (src/vortex_frame_factory.c)
-/
namespace Verif.Model

/-- Result of the scanning loop of `get_int_value` / `get_unsigned_int_value`. -/
inductive Scan
  /-- the characters before the delimiter, and what follows the delimiter -/
  | ok (digits rest : List Byte)
  /-- a character that is neither a digit nor a delimiter: the connection is shut down -/
  | bad
  /-- the scan left the memory the line occupies -/
  | outside
  deriving DecidableEq, Repr

/-- The ten comparisons of src/vortex_frame_factory.c:1420-1429. -/
def isDigitB (c : Byte) : Bool := 48 ≤ c.toNat && c.toNat ≤ 57

/-- Scanning loop, src/vortex_frame_factory.c:1415-1436 and :1456-1477. The argument is the memory
from the current position up to and including the NUL that terminates the line; running past it
is `outside`. -/
def scanField : List Byte → Scan
  | [] => .outside
  | c :: cs =>
    if c = SP ∨ c = LF ∨ c = CR then .ok [] cs
    else if isDigitB c then
      match scanField cs with
      | .ok ds rest => .ok (c :: ds) rest
      | r => r
    else .bad

/-- Value of a digit string as accumulated by `strtol`/`strtoul` before saturation. -/
def digitsVal (ds : List Byte) : Nat := ds.foldl (fun a d => a * 10 + (d.toNat - 48)) 0

/-- `result = strtol (string, NULL, 10)` stored into an `int`, src/vortex_frame_factory.c:1441
(`strtol` saturates at `LONG_MAX`). -/
def strtolInt (ds : List Byte) : Int := i32 (min (digitsVal ds) 9223372036854775807 : Nat)

/-- `result = strtoul (string, NULL, 10)` stored into an `unsigned int`,
src/vortex_frame_factory.c:1483 (`strtoul` saturates at `ULONG_MAX`). -/
def strtoulUInt (ds : List Byte) : Nat := u32 (min (digitsVal ds) 18446744073709551615 : Nat)

/-- Result of `vortex_frame_get_header_data`. -/
inductive HdrResult
  /-- a positive position, with the header fields filled (`moreChar` is `frame->more_char`) -/
  | ok (position : Nat) (moreChar : Byte) (frame : Frame)
  /-- `return -1` caused by a value that happens to be -1, *without* closing the connection; fields
  not read yet are zero -/
  | sentinel (frame : Frame)
  /-- a non-digit was found: the connection was shut down by `get_int_value` -/
  | closed
  /-- `return -2` -/
  | wrong
  /-- memory outside the line (and its terminator) was read -/
  | outside
  deriving DecidableEq, Repr

/-- The frame as allocated by `axl_new` in `vortex_frame_get_next`: everything zero. -/
def Frame.zero (type : FType) : Frame :=
  { type, channel := 0, msgno := 0, more := false, seqno := 0, size := 0, ansno := 0, payload := [] }

/-- `vortex_frame_get_header_data`, src/vortex_frame_factory.c:1519-1578. `mem` is the memory from
`&line[4]` up to and including the NUL terminator of the line and `headerLength` the
`bytes_read - 4` passed by the caller. `CHECK_INDEX_AND_RETURN` (:1496-1502) is expanded after each
checked field: -1 returns -1; -2 or `position > header_length - 1` returns -2. The comparison of
the unsigned `frame->seqno` with -1 and -2 is a comparison with 2^32-1 and 2^32-2.

When a field that is *not* followed by a check hits a non-digit, `get_int_value` has shut the
connection down; the remaining fields are scanned from the same position and fail the same way,
so the outcome is reported as `closed` directly. -/
def getHeaderData (type : FType) (mem : List Byte) (headerLength : Int) : HdrResult :=
  if headerLength = 0 then .wrong
  else
    let f := Frame.zero type
    match scanField mem with
    | .outside => .outside
    | .bad => .closed
    | .ok d1 r1 =>
      let ch := strtolInt d1
      let p1 := d1.length + 1
      let f := { f with channel := ch }
      if ch = -1 then .sentinel f
      else if ch = -2 ∨ (p1 : Int) > headerLength - 1 then .wrong
      else if type = .seq then
        match scanField r1 with
        | .outside => .outside
        | .bad => .closed
        | .ok d2 r2 =>
          let sq := strtoulUInt d2
          let p2 := p1 + d2.length + 1
          let f := { f with seqno := sq }
          if sq = 4294967295 then .sentinel f
          else if sq = 4294967294 ∨ (p2 : Int) > headerLength - 1 then .wrong
          else
            match scanField r2 with
            | .outside => .outside
            | .bad => .closed
            | .ok d3 _ =>
              let sz := strtolInt d3
              let p3 := p2 + d3.length + 1
              let f := { f with size := sz }
              if sz = -1 then .sentinel f
              else if sz = -2 ∨ (p3 : Int) > headerLength - 1 then .wrong
              else .ok (p3 + 1) 0 f
      else
        match scanField r1 with
        | .outside => .outside
        | .bad => .closed
        | .ok d2 r2 =>
          let mn := strtolInt d2
          let p2 := p1 + d2.length + 1
          let f := { f with msgno := mn }
          if mn = -1 then .sentinel f
          else if mn = -2 ∨ (p2 : Int) > headerLength - 1 then .wrong
          else
            -- `frame->more_char = beep_header [position]; position += 2;`
            match r2 with
            | mc :: _ :: r3 =>
              match scanField r3 with
              | .outside => .outside
              | .bad => .closed
              | .ok d4 r4 =>
                let f := { f with seqno := strtoulUInt d4 }
                match scanField r4 with
                | .outside => .outside
                | .bad => .closed
                | .ok d5 r5 =>
                  let f := { f with size := strtolInt d5 }
                  let p5 := p2 + 2 + (d4.length + 1) + (d5.length + 1)
                  if type = .ans then
                    match scanField r5 with
                    | .outside => .outside
                    | .bad => .closed
                    | .ok d6 _ =>
                      .ok (p5 + (d6.length + 1) + 1) mc { f with ansno := strtolInt d6 }
                  else .ok (p5 + 1) mc f
            | _ => .outside

end Verif.Model
