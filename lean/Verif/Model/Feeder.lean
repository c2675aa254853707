import Verif.Model.Sender
/-!
# Sending a file through a payload feeder (src/vortex_payload_feeder.c, src/vortex_sequencer.c)

One channel on which a file feeder is sent. Other messages are not queued meanwhile. The file does not change
while it is sent, and reading it does not fail.
-/
namespace Verif.Model

/-- `VortexPayloadFileFeeder`, src/vortex_payload_feeder.c:87-91: the part of the file not read yet, and the
end-of-file indicator of the stream. -/
structure FileFeeder where
  size : Int
  rest : List Byte
  eof : Bool
  mimePending : Bool
  deriving DecidableEq, Repr

/-- `vortex_payload_feeder_file`, src/vortex_payload_feeder.c:198-231; `state->size` is an `int`. -/
def FileFeeder.new (content : List Byte) (addMime : Bool) : FileFeeder := ⟨i32 content.length, content, false, addMime⟩

/-- `PAYLOAD_FEEDER_GET_SIZE`, src/vortex_payload_feeder.c:105-110: the size of the file, not what is left. The
addition is taken to wrap. -/
def FileFeeder.getSize (f : FileFeeder) : Int := i32 (f.size + 2)

/-- `fread` of `n` octets: the end-of-file indicator is set if there are fewer. -/
def FileFeeder.read (f : FileFeeder) (n : Nat) : List Byte × FileFeeder :=
  (f.rest.take n, { f with rest := f.rest.drop n, eof := f.eof || decide (f.rest.length < n) })

/-- `PAYLOAD_FEEDER_GET_CONTENT`, src/vortex_payload_feeder.c:111-130, asked for `n ≥ 1` octets. `none`: with
`n = 1`, `(*size) - 2` is converted to the greatest `size_t`, and the whole file is read into a buffer made for
one octet. -/
def FileFeeder.getContent (f : FileFeeder) (n : Nat) : Option (List Byte × FileFeeder) :=
  if f.mimePending then
    if n < 2 then none
    else
      let r := { f with mimePending := false }.read (n - 2)
      some (CR :: LF :: r.1, r.2)
  else some (f.read n)

/-- What does not change in the frames of the message. -/
structure FeedMeta where
  type : FType
  channel : Int
  ansno : Int
  deriving DecidableEq, Repr

structure FeedChan where
  win : SendWin
  info : FeedMeta
  feeder : FileFeeder
  /-- `feeder->status != 0` -/
  paused : Bool
  /-- `feeder->close_transfer` -/
  close : Bool
  /-- `feeder->msg_no` -/
  saved : Int
  /-- message numbers of the pending messages with this feeder -/
  pending : List Int
  deriving DecidableEq, Repr

inductive FeedOut
  | ok (c : FeedChan) (f : Option Frame)
  /-- the connection is shut down -/
  | shutdown
  /-- writes outside the buffer -/
  | overrun
  deriving DecidableEq, Repr

/-- A frame of the message. -/
def FeedChan.frame (c : FeedChan) (msgno : Int) (payload : List Byte) (more : Bool) : Frame :=
  { type := c.info.type, channel := c.info.channel, msgno, more, seqno := c.win.lastSeq, size := payload.length,
    ansno := if c.info.type = .ans then c.info.ansno else 0, payload }

/-- `__vortex_sequencer_do_send_round`, src/vortex_sequencer.c:429-525, with
`vortex_sequencer_build_packet_to_send` (:280-421), for a message with a feeder, and the removal of the message
when complete (:604-607). -/
def FeedChan.emit (c : FeedChan) : FeedOut :=
  match c.pending with
  | [] => .ok c none
  | m :: ms =>
    let size := c.feeder.getSize
    let n := c.win.nextFrameSize c.win.lastSeq size c.win.maxSeqNo
    if n > size ∨ n ≤ 0 then .shutdown
    else if c.paused then
      if !c.close then .ok { c with saved := m, pending := ms } none
      else .ok { c with win := c.win.advance 0, pending := ms } (some (c.frame m [] false))
    else
      match c.feeder.getContent n.toNat with
      | none => .overrun
      | some (bytes, f) =>
        .ok { c with win := c.win.advance bytes.length, feeder := f, pending := if f.eof then ms else m :: ms }
          (some (c.frame m bytes (!f.eof)))

inductive FeedOp
  /-- `vortex_channel_send_msg_from_feeder` (src/vortex_channel.c:2558-2596), or a reply; also to resume;
  `msgno` is the next message number -/
  | send (msgno : Int)
  /-- `vortex_payload_feeder_pause`, src/vortex_payload_feeder.c:389-400 -/
  | pause (close : Bool)
  /-- a visit of the sequencer thread -/
  | round
  /-- the second half of such a visit, SEQ frames having been applied since the stalled test -/
  | lateRound
  | seq (ackno window : Nat)
  | ownWindow (size : Int)
  deriving DecidableEq, Repr

def FeedChan.step (c : FeedChan) : FeedOp → FeedOut
  | .send msgno =>
    .ok { c with paused := false, pending := c.pending ++ [if c.paused && !c.close then c.saved else msgno] } none
  | .pause close => .ok { c with paused := true, close } none
  | .round => if c.win.stalled then .ok c none else c.emit
  | .lateRound => c.emit
  | .seq ackno window =>
    match c.win.grant (u32 ackno) (u32 window) with
    | none => .shutdown
    | some w => .ok { c with win := w } none
  | .ownWindow size => .ok { c with win := { c.win with windowSize := size } } none

/-- A file is to be sent on a channel with this window. -/
def FeedChan.start (win : SendWin) (info : FeedMeta) (content : List Byte) (addMime : Bool) : FeedChan :=
  ⟨win, info, FileFeeder.new content addMime, false, false, 0, []⟩

/-- Final state (`none`: shut down or memory corrupted) and the frames written. -/
def FeedChan.run (c : FeedChan) : List FeedOp → Option FeedChan × List Frame
  | [] => (some c, [])
  | op :: ops =>
    match c.step op with
    | .ok c' fo =>
      let r := c'.run ops
      (r.1, fo.toList ++ r.2)
    | _ => (none, [])

end Verif.Model
