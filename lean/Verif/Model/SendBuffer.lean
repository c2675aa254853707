import Verif.Model.Frame
/-!
# Growth of the send buffer (src/vortex_sequencer.c)
-/
namespace Verif.Model

/-- The `while` loop of `CHECK_AND_INCREASE_BUFFER`, src/vortex_sequencer.c:232-235. The guard
`100 < bufferSize` holds whenever the loop is entered (:231). Simplification: sizes are unbounded
naturals, i.e. the doubling is assumed not to overflow an `int` (it cannot with frames of at most
4096 octets). -/
def growLoop (sizeToCopy bufferSize : Nat) : Nat :=
  if h : 100 < bufferSize ∧ sizeToCopy + 100 > bufferSize then
    growLoop sizeToCopy ((bufferSize - 100) * 2 + 100)
  else bufferSize
termination_by sizeToCopy + 100 - bufferSize
decreasing_by omega

/-- `CHECK_AND_INCREASE_BUFFER`, src/vortex_sequencer.c:226-246: the buffer size afterwards (a new
buffer of that size is allocated when it changes). -/
def checkAndIncreaseBuffer (sizeToCopy bufferSize : Nat) : Nat :=
  if sizeToCopy + 100 > bufferSize then
    if bufferSize > 100 then growLoop sizeToCopy bufferSize else sizeToCopy + 100
  else bufferSize

/-- The sequence "check and increase, then build" of `vortex_sequencer_build_packet_to_send`,
src/vortex_sequencer.c:355-409: the buffer size used and the frame. No check is made for an empty
payload (`if (size_to_copy > 0)`, :357). -/
def buildPacket (type : FType) (channel msgno : Int) (more : Bool) (seqno : Nat) (ansno : Int)
    (payload : List Byte) (bufferSize : Nat) : Nat × BuildResult :=
  let bs := if payload.length > 0 then checkAndIncreaseBuffer payload.length bufferSize else bufferSize
  (bs, buildFrame type channel msgno more seqno ansno none none payload bs)

/-- `ctx->sequencer_send_buffer_size` set by `vortex_sequencer_run`, src/vortex_sequencer.c:727. -/
def initialBufferSize : Nat := 4096 + 100

end Verif.Model
