import Verif.Model.Reader
import Verif.Model.GetNext
import Verif.Model.SendBuffer
/-!
# Two complete endpoints on a byte stream

One channel (not channel 0) of a connection between two programs that use this library, both sending messages and
replies. The connection is two streams of octets; everything between the calls of the application and the frames
handed to it is made of the functions of the other files: `OutChan.sendMsg`, `SendChan.round`, `buildPacket`,
`getNext`, `Chan.process`, `buildSeq` and `SendWin.grant`.
Simplifications: the octets of a frame are written at once (see `Verif.Model.SendRaw`), a call of the application is
one step, replies are given in the order of the messages (see `Verif.Model.Replies` for the rest) and are RPY or ERR,
messages are sent whole (no `vortex_channel_send_msg_more`).
-/
namespace Verif.Model

/-- One endpoint. `sent` and `got` only record what its application did and saw: kind, number and content of each
message or reply accepted for sending, and each frame handed to the application. `acks` records the ackno of each SEQ
frame written. -/
structure Endpoint where
  chan : Chan
  snd : SendChan
  rd : ReadState
  /-- `ctx->sequencer_send_buffer_size` -/
  buf : Nat
  sent : List (FType × Int × List Byte)
  got : List Delivery
  acks : List Nat
  deriving DecidableEq, Repr

/-- A new channel that joins fragments (`complete_flag`, the default) and without limits:
`vortex_channel_empty_new`, src/vortex_channel.c:1537-1659. -/
def Endpoint.init : Endpoint := ⟨.init true 0 0 0 false, .init, .init, initialBufferSize, [], [], []⟩

/-- The two endpoints and the octets written by one and not read by the other. -/
structure Link where
  a : Endpoint
  b : Endpoint
  ab : List Byte
  ba : List Byte
  deriving DecidableEq, Repr

def Link.init : Link := ⟨.init, .init, [], []⟩

inductive LinkOp
  /-- `vortex_channel_send_msg`; `content` is the payload with its MIME headers (see `mimeContent`) -/
  | send (content : List Byte)
  /-- `vortex_channel_send_rpy` or `vortex_channel_send_err` to the oldest message not answered -/
  | reply (err : Bool) (content : List Byte)
  /-- `vortex_channel_set_window_size` -/
  | setWindow (n : Int)
  /-- the sequencer thread visits the channel -/
  | round
  /-- the reader thread finds `k` octets (or all there are) in the socket -/
  | read (k : Nat)
  deriving DecidableEq, Repr

/-- `vortex_channel_send_msg_common`, src/vortex_channel.c:2425-2655. -/
def Endpoint.send (ch : Int) (e : Endpoint) (content : List Byte) : Endpoint :=
  match e.chan.out.sendMsg false with
  | (.sent m, out) =>
    { e with
      chan := { e.chan with out := out }
      snd := e.snd.queue ⟨.msg, ch, m, 0, false, content⟩
      sent := e.sent ++ [(.msg, m, content)] }
  | _ => e

/-- `__vortex_channel_common_rpy`, src/vortex_channel.c:3044-3389, for the message expected by
`vortex_channel_get_next_reply_no`; nothing when there is none. -/
def Endpoint.reply (ch : Int) (e : Endpoint) (err : Bool) (content : List Byte) : Endpoint :=
  match e.chan.inc.pending with
  | [] => e
  | m :: _ =>
    let t : FType := if err then .err else .rpy
    { e with
      chan := { e.chan with inc := (e.chan.inc.removeFirst m).2 }
      snd := e.snd.queue ⟨t, ch, m, 0, false, content⟩
      sent := e.sent ++ [(t, m, content)] }

/-- The connection is shut down. -/
def Endpoint.close (e : Endpoint) : Endpoint := { e with chan := { e.chan with shut := true } }

/-- `vortex_sequencer_process_channels` for this channel, src/vortex_sequencer.c:538-636, and the octets written. -/
def Endpoint.round (e : Endpoint) : Endpoint × List Byte :=
  match e.snd.round with
  | none => (e.close, [])
  | some (c, none) => ({ e with snd := c }, [])
  | some (c, some f) =>
    match buildPacket f.type f.channel f.msgno f.more f.seqno f.ansno f.payload e.buf with
    | (buf, .built octets) => ({ e with snd := c, buf := buf }, octets)
    | (_, .tooSmall) => (e.close, [])

/-- What the frame reader asks: src/vortex_frame_factory.c:1786-1836. -/
def Endpoint.env (ch : Int) (e : Endpoint) : ReadEnv :=
  ⟨fun c => decide (c = ch), fun _ seqno size => e.chan.win.check seqno size⟩

/-- `__vortex_reader_process_socket`, src/vortex_reader.c:342-626, and the octets of the SEQ frame written
(:129-194). The window of the channel is shared by its two directions (`window_size`). -/
def Endpoint.handle (ch : Int) (e : Endpoint) (f : Frame) : Endpoint × List Byte :=
  if f.type = .seq then
    match e.snd.win.grant f.seqno (u32 f.size) with
    | none => (e.close, [])
    | some w => ({ e with snd := { e.snd with win := w } }, [])
  else
    let seq := (e.chan.win.update f.seqno f.size).2
    let r := e.chan.process f
    ({ e with
        chan := r.2
        snd := { e.snd with win := { e.snd.win with windowSize := r.2.win.windowSize } }
        got := match r.1 with
          | .delivered d => e.got ++ [d]
          | _ => e.got
        acks := match seq with
          | some (a, _) => e.acks ++ [a]
          | none => e.acks },
     match seq with
      | some (a, n) => (buildSeq ch a n).getD []
      | none => [])

/-- The reader thread is told that there is something to read: the endpoint, the octets written and the octets of
`available` not read. -/
def Endpoint.read (ch : Int) (e : Endpoint) (available : List Byte) : Endpoint × List Byte × List Byte :=
  match getNext (e.env ch) e.rd (available.map .byte) with
  | (.frame f rd, rest) =>
    let r := { e with rd := rd }.handle ch f
    (r.1, r.2, rest.filterMap fun | .byte b => some b | _ => none)
  | (.pending rd, rest) => ({ e with rd := rd }, [], rest.filterMap fun | .byte b => some b | _ => none)
  | _ => (e.close, [], [])

/-- Steps of `a`. Once it has shut the connection down, it does nothing. -/
def Link.stepA (ch : Int) (l : Link) (op : LinkOp) : Link :=
  if l.a.chan.shut then l
  else match op with
    | .send content => { l with a := l.a.send ch content }
    | .reply err content => { l with a := l.a.reply ch err content }
    | .setWindow n => { l with a := { l.a with chan := { l.a.chan with win := l.a.chan.win.setWindow n } } }
    | .round => { l with a := l.a.round.1, ab := l.ab ++ l.a.round.2 }
    | .read k =>
      if l.ba.take k = [] then l
      else
        let r := l.a.read ch (l.ba.take k)
        { l with a := r.1, ab := l.ab ++ r.2.1, ba := r.2.2 ++ l.ba.drop k }

/-- The same two endpoints, named the other way round. -/
def Link.swap (l : Link) : Link := ⟨l.b, l.a, l.ba, l.ab⟩

/-- A step of one of them (`true`: `a`). -/
def Link.step (ch : Int) (l : Link) (side : Bool) (op : LinkOp) : Link :=
  if side then l.stepA ch op else (l.swap.stepA ch op).swap

/-- A history. -/
def Link.run (ch : Int) (l : Link) : List (Bool × LinkOp) → Link
  | [] => l
  | (s, op) :: ops => (l.step ch s op).run ch ops

end Verif.Model
