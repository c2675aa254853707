import Verif.Model.CInt
/-!
# Flow control windows (src/vortex_channel.c)
-/
namespace Verif.Model

/-! ## Sending side -/

/-- The fields of `struct _VortexChannel` (src/vortex_channel.c:64-400) that describe what the peer
accepts: `last_seq_no`, `remote_consumed_seq_no` (unsigned int), `remote_window` (int), and the
local `window_size` (int) which also caps the size of outgoing frames. -/
structure SendWin where
  lastSeq : Nat
  remoteConsumed : Nat
  remoteWindow : Int
  windowSize : Int
  deriving DecidableEq, Repr

/-- `vortex_channel_empty_new`, src/vortex_channel.c:1573-1589: a fresh channel. -/
def SendWin.init : SendWin := ⟨0, 0, 4096, 4096⟩

/-- `vortex_channel_get_max_seq_no_remote_accepted`, src/vortex_channel.c:4194-4208. -/
def SendWin.maxSeqNo (w : SendWin) : Nat := u32 (w.remoteConsumed + w.remoteWindow - 1)

/-- `vortex_channel_is_stalled`, src/vortex_channel.c:9358-9368. -/
def SendWin.stalled (w : SendWin) : Bool := w.lastSeq == u32 (w.remoteConsumed + w.remoteWindow)

/-- `vortex_channel_get_next_frame_size`, src/vortex_channel.c:4236-4277, when neither the channel,
nor the connection, nor the context has a user supplied frame size handler. In the first branch
the subtraction is done in `unsigned int`, in the second in `long long`; both are stored
into an `int`. -/
def SendWin.nextFrameSize (w : SendWin) (nextSeq : Nat) (messageSize : Int) (maxSeq : Nat) : Int :=
  let available : Int :=
    if nextSeq ≤ maxSeq then i32 (u32 ((maxSeq : Int) - nextSeq + 1))
    else i32 ((4294967296 - (nextSeq : Int)) + maxSeq + 1)
  min available (min w.windowSize (min messageSize 4096))

/-- `vortex_channel_update_remote_incoming_buffer`, src/vortex_channel.c:4098-4174: effect of a SEQ
frame (`ackno`, `window` are the unsigned ints passed by the reader). `none`: the connection is shut
down. In the first branch the computation is in `unsigned int`, in the second in `long long`;
both are stored into an `int`. `window > window_available` compares as unsigned. -/
def SendWin.grant (w : SendWin) (ackno window : Nat) : Option SendWin :=
  let available : Int :=
    if w.remoteConsumed ≤ ackno then
      i32 (u32 (w.remoteWindow - u32 ((ackno : Int) - w.remoteConsumed)))
    else i32 (w.remoteWindow - (4294967296 - (w.remoteConsumed : Int)) - ackno)
  if available ≥ 0 ∧ window > u32 available then
    some { w with remoteConsumed := ackno, remoteWindow := i32 window }
  else none

/-- `vortex_channel_update_status` with `UPDATE_SEQ_NO`, src/vortex_channel.c:2249-2253. -/
def SendWin.advance (w : SendWin) (size : Int) : SendWin :=
  { w with lastSeq := u32 (w.lastSeq + u32 size) }

/-! ## Receiving side -/

/-- The fields of `struct _VortexChannel` that describe what this endpoint accepts:
`consumed_seqno`, `seq_no_window`, `last_seq_no_expected` (unsigned int), `window_size` and
`desired_window_size` (int). -/
structure RecvWin where
  consumed : Nat
  seqWindow : Nat
  expected : Nat
  windowSize : Int
  desired : Int
  deriving DecidableEq, Repr

/-- `vortex_channel_empty_new`, src/vortex_channel.c:1573-1589. -/
def RecvWin.init : RecvWin := ⟨0, 4096, 0, 4096, 4096⟩

/-- `vortex_channel_set_window_size`, src/vortex_channel.c:3970-3979. -/
def RecvWin.setWindow (w : RecvWin) (size : Int) : RecvWin :=
  if size > 0 then { w with desired := size } else w

/-- `vortex_channel_check_incoming_seqno`, src/vortex_channel.c:9329-9345. -/
def RecvWin.check (w : RecvWin) (seqno : Nat) (size : Int) : Bool :=
  if seqno ≥ w.consumed then
    decide (u32 ((seqno : Int) - w.consumed + size) ≤ w.seqWindow)
  else
    decide ((4294967296 - (w.consumed : Int)) + seqno + size ≤ w.seqWindow)

/-- `vortex_channel_get_max_seq_no_accepted`, src/vortex_channel.c:4517-4520. -/
def RecvWin.maxAccepted (w : RecvWin) : Nat := u32 ((w.consumed : Int) + w.seqWindow - 1)

/-- `vortex_channel_incoming_bytes_available`, src/vortex_channel.c:4323-4345. -/
def RecvWin.bytesAvailable (w : RecvWin) (seqno : Nat) (size : Int) : Int :=
  if seqno < w.consumed then
    i32 ((w.seqWindow : Int) - (4294967296 - (w.consumed : Int)) - seqno - size)
  else i32 (u32 ((w.seqWindow : Int) - u32 ((seqno : Int) - w.consumed) - size))

/-- `vortex_channel_update_incoming_buffer`, src/vortex_channel.c:4370-4505: the new state and the
(ackno, window) of the SEQ frame to send, if any. Not modelled: connections where SEQ handling is
disabled (:4389) and the exception for channel 0 while it is being closed (:4405). -/
def RecvWin.update (w : RecvWin) (seqno : Nat) (size : Int) : RecvWin × Option (Nat × Int) :=
  let consumed := u32 ((seqno : Int) + size)
  -- `bytes_available > (channel->seq_no_window / 2)`: unsigned comparison
  if u32 (w.bytesAvailable seqno size) > w.seqWindow / 2 then (w, none)
  else if w.windowSize ≠ w.desired then
    if u32 ((consumed : Int) + w.desired - 1) < w.maxAccepted then (w, none)
    else
      ({ w with windowSize := w.desired, consumed := consumed, seqWindow := u32 w.desired },
        some (consumed, w.desired))
  else ({ w with consumed := consumed, seqWindow := u32 w.windowSize },
        some (consumed, w.windowSize))

/-- `vortex_channel_update_status_received` with `UPDATE_SEQ_NO`, src/vortex_channel.c:2320-2322. -/
def RecvWin.advance (w : RecvWin) (size : Int) : RecvWin :=
  { w with expected := u32 (w.expected + u32 size) }

/-- Flow control part of the handling of one data frame: check on the header
(src/vortex_frame_factory.c:1829), `__vortex_reader_update_incoming_buffer_and_notify`
(src/vortex_reader.c:129-194, :354), the sequence number check (:416-430) and the status update
(:441-499). `none`: the connection is shut down. The window update happens before the sequence
number check, as in the code. -/
def RecvWin.receive (w : RecvWin) (seqno : Nat) (size : Int) :
    Option (RecvWin × Option (Nat × Int)) :=
  if w.check seqno size then
    let (w1, seq) := w.update seqno size
    if w1.expected = seqno then some (w1.advance size, seq) else none
  else none

end Verif.Model
