import Verif.Model.FrameOps
import Verif.Model.Replies
/-!
# Messages sent and frames received on one channel (src/vortex_channel.c, src/vortex_reader.c)
-/
namespace Verif.Model

/-! ## Sending messages: numbers -/

/-- The fields of `struct _VortexChannel` used to number messages: `outstanding_msg` (numbers of messages
sent and not completely answered, oldest first), `next_proposed_msgno`, `last_fixed_more_msg_no`,
`outstanding_limit`, `fail_on_limit`. -/
structure OutChan where
  outstanding : List Int
  nextProposed : Int
  lastFixedMore : Int
  limit : Int
  failOnLimit : Bool
  deriving DecidableEq, Repr

/-- `vortex_channel_empty_new`, src/vortex_channel.c:1537-1659, and
`vortex_channel_set_outstanding_limit`, :8515-8525. -/
def OutChan.init (limit : Int) (failOnLimit : Bool) : OutChan := ⟨[], -1, -1, limit, failOnLimit⟩

/-- `vortex_channel_get_next_msg_no`, src/vortex_channel.c:1489-1499. Signed overflow is taken to wrap. -/
def OutChan.nextMsgNo (c : OutChan) : Int × OutChan :=
  let n := i32 (c.nextProposed + 1)
  let n := if n = -1 then i32 (n + 1) else n
  (n, { c with nextProposed := n })

inductive SendResult
  /-- returns false: too many outstanding messages -/
  | refused
  /-- waits on `send_cond` (released when a reply completes, then checks again) -/
  | blocked
  /-- queued with this number -/
  | sent (m : Int)
  deriving DecidableEq, Repr

/-- `vortex_channel_send_msg_common`, src/vortex_channel.c:2425-2655, as called by
`vortex_channel_send_msg` and `_send_msg_more` (no proposed number, no feeder), on an open channel and
working connection. Runs under `send_mutex`. -/
def OutChan.sendMsg (c : OutChan) (more : Bool) : SendResult × OutChan :=
  if c.limit > 0 ∧ (c.outstanding.length : Int) ≥ c.limit then
    (if c.failOnLimit then .refused else .blocked, c)
  else if c.lastFixedMore ≥ 0 then
    (.sent c.lastFixedMore, if more then c else { c with lastFixedMore := -1 })
  else
    let (m, c) := c.nextMsgNo
    let c := if more ∧ c.lastFixedMore = -1 then { c with lastFixedMore := m } else c
    (.sent m, { c with outstanding := c.outstanding ++ [m] })

/-- `vortex_channel_get_next_expected_reply_no`, src/vortex_channel.c:5162-5184. -/
def OutChan.expectedReply (c : OutChan) : Int := c.outstanding.headD (-1)

/-- `vortex_channel_remove_first_outstanding_msg_no`, src/vortex_channel.c:5221-5262. `false`: the
connection is shut down. -/
def OutChan.removeFirst (c : OutChan) (m : Int) : Bool × OutChan :=
  if c.outstanding.headD 0 = m then (true, { c with outstanding := c.outstanding.drop 1 }) else (false, c)

/-! ## Receiving frames -/

/-- The part of a channel the reader thread works on. `previous` is the list of stored fragments
(`previous_frame`), `currentBytes` is `complete_current_bytes`, the limits are
`complete_frame_limit` of channel and connection. `shut`: the connection was shut down. -/
structure Chan where
  win : RecvWin
  inc : Incoming
  out : OutChan
  previous : List Frame
  currentBytes : Int
  completeFlag : Bool
  channelLimit : Int
  connLimit : Int
  shut : Bool
  deriving DecidableEq, Repr

/-- A new channel (not channel 0), `vortex_channel_empty_new`, src/vortex_channel.c:1537-1659, with
`vortex_channel_set_complete_flag` (:1933), `vortex_channel_set_complete_frame_limit` (:1969),
`vortex_connection_set_complete_frame_limit` (src/vortex_connection.c:463) and
`vortex_channel_set_outstanding_limit` applied. -/
def Chan.init (completeFlag : Bool) (channelLimit connLimit : Int) (limit : Int) (failOnLimit : Bool) : Chan :=
  ⟨.init, .init, .init limit failOnLimit, [], 0, completeFlag, channelLimit, connLimit, false⟩

/-- The frame handed to the application. `content` is everything received, `body` what
`vortex_frame_get_payload` gives (`none`: MIME processing reads outside of the content). -/
structure Delivery where
  type : FType
  channel : Int
  msgno : Int
  ansno : Int
  seqno : Nat
  more : Bool
  content : List Byte
  body : Option (List Byte)
  deriving DecidableEq, Repr

inductive Outcome
  /-- the connection was already closed: not read -/
  | ignored
  /-- the connection is shut down and nothing delivered -/
  | closed
  /-- a fragment was stored -/
  | kept
  | delivered (d : Delivery)
  /-- the size of the message overflows an `int` (src/vortex_channel.c:2095-2111) -/
  | overflow
  deriving DecidableEq, Repr

/-- A received frame as the functions on frames see it. -/
def Frame.toV (f : Frame) : VFrame :=
  ⟨f.type, f.channel, f.msgno, f.more, f.seqno, f.size, f.ansno, 0, some f.payload, none, none⟩

/-- The number check, src/vortex_reader.c:359-382 (MSG: `vortex_reader_check_incoming_msgno`,
:213-238). `none`: connection shut down. -/
def Chan.checkNumber (c : Chan) (f : Frame) : Option Chan :=
  match f.type with
  | .msg => (c.inc.check f.more f.msgno).map fun inc => { c with inc := inc }
  | .rpy | .err | .ans | .nul => if c.out.expectedReply = f.msgno then some c else none
  | .seq => some c

/-- `__vortex_reader_process_socket_check_nul_frame`, src/vortex_reader.c:83-114: refused? -/
def nulWrong (f : Frame) : Bool := (mimeBody wireTail f.payload != some []) || f.more

/-- The status update, src/vortex_reader.c:441-507. -/
def Chan.updateStatus (c : Chan) (f : Frame) : Chan :=
  let c := { c with win := c.win.advance f.size }
  if (f.type = .rpy ∨ f.type = .err) ∧ f.more = false ∨ f.type = .nul then
    let (ok, out) := c.out.removeFirst f.msgno
    { c with out := out, shut := c.shut || !ok }
  else c

/-- The limit in force, src/vortex_channel.c:2045-2050; not positive: none. -/
def Chan.frameLimit (c : Chan) : Int :=
  let limit := if c.channelLimit > 0 then c.channelLimit else -1
  if c.connLimit > limit then c.connLimit else limit

/-- `vortex_channel_store_previous_frame`, src/vortex_channel.c:2029-2068. The payload of a NUL frame is
empty at this point (MIME headers taken away by `__vortex_reader_process_socket_check_nul_frame`).
Signed overflow of the counter is taken to wrap. -/
def Chan.store (c : Chan) (f : Frame) : Chan :=
  let bytes := i32 (c.currentBytes + if f.type = .nul then 0 else f.size)
  { c with
    currentBytes := bytes
    previous := c.previous ++ [f]
    shut := c.shut || decide (c.frameLimit > 0 ∧ bytes > c.frameLimit) }

/-- What `memcpy (.., vortex_frame_get_payload (frame), vortex_frame_get_content_size (frame))`
(src/vortex_channel.c:2125) copies of a stored frame. A NUL frame has been through MIME processing, so
its payload begins after the headers, and as many octets as the whole content are read from there. -/
def joinOctets (f : Frame) : List Byte :=
  if f.type = .nul then
    match mimeProcess wireTail f.payload with
    | .ok _ n => ((f.payload ++ wireTail).drop n).take f.payload.length
    | _ => f.payload
  else f.payload

/-- Delivery of a frame as received; `__vortex_reader_process_socket`, src/vortex_reader.c:581-623. Which
handler gets it is not decided here. -/
def Chan.deliverOne (c : Chan) (f : Frame) : Outcome :=
  .delivered
    { type := f.type, channel := f.channel, msgno := f.msgno, ansno := f.ansno, seqno := f.seqno, more := f.more
      content := f.payload
      body := if (!f.more ∧ c.completeFlag) ∨ f.type = .nul then mimeBody wireTail f.payload else some f.payload }

/-- Delivery of the stored fragments as one frame: `vortex_channel_build_single_pending_frame`,
src/vortex_channel.c:2083-2183, and src/vortex_reader.c:581-623. `last` is the type of the frame just
received. -/
def Chan.deliverStored (c : Chan) (last : FType) : Outcome :=
  match c.previous with
  | [] => .ignored
  | f :: fs =>
    let content := (f :: fs).flatMap joinOctets
    if content.length ≥ 2147483647 then .overflow
    else
      .delivered
        { type := f.type, channel := f.channel, msgno := f.msgno, ansno := f.ansno, seqno := f.seqno, more := false
          content := content
          body := if last ≠ .nul ∧ c.completeFlag then mimeBody builtTail content else some content }

/-- Fragments, src/vortex_reader.c:511-623. -/
def Chan.assemble (c : Chan) (f : Frame) : Outcome × Chan :=
  if f.more then
    match c.previous.getLast? with
    | none => if c.completeFlag then (.kept, c.store f) else (c.deliverOne f, c)
    | some p => if p.toV.joinable f.toV then (.kept, c.store f) else (.closed, { c with shut := true })
  else if c.previous ≠ [] then
    let c := c.store f
    (c.deliverStored f.type, { c with previous := [], currentBytes := 0 })
  else (c.deliverOne f, c)

/-- `__vortex_reader_process_socket`, src/vortex_reader.c:273-626, for a frame of this channel other than
SEQ, on a connection without preread handler, with the window check done while reading the frame
(src/vortex_frame_factory.c:1829). One frame is handled without interruption: the reader is one
thread, and the lists it shares with other threads only grow at their end in between. The SEQ frame it
may send is left out (see `RecvWin.update`). -/
def Chan.process (c : Chan) (f : Frame) : Outcome × Chan :=
  if c.shut then (.ignored, c)
  else if c.win.check f.seqno f.size = false then (.closed, { c with shut := true })
  else
    match { c with win := (c.win.update f.seqno f.size).1 }.checkNumber f with
    | none => (.closed, { c with shut := true })
    | some c =>
      if c.win.expected ≠ f.seqno then (.closed, { c with shut := true })
      else if f.type = .nul ∧ nulWrong f then (.closed, { c with shut := true })
      else (c.updateStatus f).assemble f

/-- What happens on a channel. -/
inductive ChanOp
  /-- `vortex_channel_send_msg` or `vortex_channel_send_msg_more` -/
  | send (more : Bool)
  /-- a frame arrives -/
  | frame (f : Frame)
  /-- a complete answer to the oldest received message is queued (see `ReplyChan`) -/
  | answered (m : Int)
  /-- `vortex_channel_set_window_size` -/
  | setWindow (n : Int)
  deriving DecidableEq, Repr

/-- What the application and the peer can see of it. -/
inductive ChanEvent
  | send (more : Bool) (r : SendResult)
  | frame (f : Frame) (o : Outcome)
  deriving DecidableEq, Repr

/-- One of these. Sending on a broken connection is refused (src/vortex_channel.c:2449-2452). -/
def Chan.step (c : Chan) : ChanOp → List ChanEvent × Chan
  | .send more => if c.shut then ([.send more .refused], c) else ([.send more (c.out.sendMsg more).1], { c with out := (c.out.sendMsg more).2 })
  | .frame f => ([.frame f (c.process f).1], (c.process f).2)
  | .answered m => ([], { c with inc := (c.inc.removeFirst m).2 })
  | .setWindow n => ([], { c with win := c.win.setWindow n })

/-- A history. -/
def Chan.run (c : Chan) : List ChanOp → List ChanEvent × Chan
  | [] => ([], c)
  | op :: ops => ((c.step op).1 ++ ((c.step op).2.run ops).1, ((c.step op).2.run ops).2)

end Verif.Model
