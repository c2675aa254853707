import Verif.Model.Window
import Verif.Model.Frame
/-!
# Sending side of a channel (src/vortex_sequencer.c)

One channel: its queue of pending messages and its send window. The sequencer thread, the
application threads that queue messages and the reader thread that applies SEQ frames each act
through one of the operations below; each runs under a mutex (`state->mutex`, `ref_mutex`), so an
execution is an interleaving of operations. Which channel gets the next round (the `ready` set) is
modelled in `Verif.Model.Sequencer`; here rounds may happen at any time.
-/
namespace Verif.Model

/-- A message as handed to `vortex_sequencer_queue_data`: `VortexSequencerData`,
src/vortex_types.h / src/vortex_handlers; no feeder. -/
structure OutMsg where
  type : FType
  channel : Int
  msgno : Int
  ansno : Int
  fixedMore : Bool
  message : List Byte
  deriving DecidableEq, Repr

/-- `VortexSequencerData` in the pending queue: `step` octets already sent, `messageSize` left. -/
structure Pending where
  msg : OutMsg
  step : Nat
  messageSize : Int
  deriving DecidableEq, Repr

/-- Outcome of a send round. -/
inductive Round
  /-- a frame was built and written; `complete` is `packet.is_complete` -/
  | sent (f : Frame) (complete : Bool) (w : SendWin) (p : Pending)
  /-- `__vortex_connection_shutdown_and_record_error` (src/vortex_sequencer.c:310) -/
  | shutdown
  deriving DecidableEq, Repr

/-- `__vortex_sequencer_do_send_round`, src/vortex_sequencer.c:429-525, with
`vortex_sequencer_build_packet_to_send` (:280-421) for a message without feeder. The frame is kept
structured; its octets are `Verif.Model.buildPacket`. `vortex_sequencer_direct_send` is assumed to
write the whole frame (see `Verif.Model.SendRaw` for that). -/
def sendRound (w : SendWin) (p : Pending) : Round :=
  -- data->first_seq_no = vortex_channel_get_next_seq_no (channel)
  let firstSeq := w.lastSeq
  let emit (size : Int) : Round :=
    let complete := decide (size = p.messageSize)
    let f : Frame :=
      { type := p.msg.type, channel := p.msg.channel, msgno := p.msg.msgno
        more := !complete || p.msg.fixedMore
        seqno := firstSeq, size := size
        ansno := if p.msg.type = .ans then p.msg.ansno else 0
        payload := (p.msg.message.drop p.step).take size.toNat }
    .sent f complete (w.advance size)
      (if complete then p
       else { p with step := p.step + size.toNat, messageSize := p.messageSize - size })
  if p.messageSize = 0 ∧ p.msg.type = .nul then emit 0
  else
    let size := w.nextFrameSize firstSeq p.messageSize w.maxSeqNo
    if size > p.messageSize ∨ size ≤ 0 then .shutdown else emit size

/-- A channel as seen by the sequencer. -/
structure SendChan where
  win : SendWin
  pending : List Pending
  deriving DecidableEq, Repr

/-- A fresh channel. -/
def SendChan.init : SendChan := ⟨SendWin.init, []⟩

/-- `vortex_sequencer_queue_data` → `vortex_channel_queue_pending_message`,
src/vortex_sequencer.c:145-189, :101/:127, src/vortex_channel.c:4570-4590: append to the queue. -/
def SendChan.queue (c : SendChan) (m : OutMsg) : SendChan :=
  { c with pending := c.pending ++ [⟨m, 0, m.message.length⟩] }

/-- The send round itself, src/vortex_sequencer.c:590-607: nothing when nothing is pending (:440),
otherwise a frame, and removal of the message when complete (:604-607). -/
def SendChan.emit (c : SendChan) : Option (SendChan × Option Frame) :=
  match c.pending with
  | [] => some (c, none)
  | p :: ps =>
    match sendRound c.win p with
    | .shutdown => none
    | .sent f complete w p' => some (⟨w, if complete then ps else p' :: ps⟩, some f)

/-- One iteration of `vortex_sequencer_process_channels` for this channel,
src/vortex_sequencer.c:538-636: nothing when stalled (:551), otherwise a send round. -/
def SendChan.round (c : SendChan) : Option (SendChan × Option Frame) :=
  if c.win.stalled then some (c, none) else c.emit

/-- What can happen to a channel. -/
inductive SendOp
  /-- the application queues a message -/
  | queue (m : OutMsg)
  /-- the sequencer thread visits the channel -/
  | round
  /-- the second half of such a visit, SEQ frames having been applied since the stalled test -/
  | lateRound
  /-- the reader thread applies a SEQ frame received from the peer -/
  | seq (ackno window : Nat)
  /-- the reader thread changes `window_size` (src/vortex_channel.c:4478) -/
  | ownWindow (size : Int)
  deriving DecidableEq, Repr

/-- Effect of an operation: new state and frame written. `none`: connection shut down. -/
def SendChan.step (c : SendChan) : SendOp → Option (SendChan × Option Frame)
  | .queue m => some (c.queue m, none)
  | .round => c.round
  | .lateRound => c.emit
  | .seq ackno window => (c.win.grant (u32 ackno) (u32 window)).map fun w => ({ c with win := w }, none)
  | .ownWindow size => some ({ c with win := { c.win with windowSize := size } }, none)

/-- Run operations until the end of the list or until the connection is shut down: final state
(`none` after a shutdown) and the frames written. -/
def SendChan.run (c : SendChan) : List SendOp → Option SendChan × List Frame
  | [] => (some c, [])
  | op :: ops =>
    match c.step op with
    | none => (none, [])
    | some (c', fo) =>
      let (r, fs) := c'.run ops
      (r, fo.toList ++ fs)

end Verif.Model
