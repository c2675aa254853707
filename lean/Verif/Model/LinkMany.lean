import Verif.Model.Link
/-!
# Two complete endpoints with several channels

The same as `Verif.Model.Link` for a connection with any number of channels: they share the two streams of octets, the
frame being read (`ReadState`) and the buffer of the sequencer, and the connection is shut down for all of them at
once. The channels exist from the beginning on (see `Verif.Model.Start` and `Verif.Model.Chan0` for how they come to
be). The order in which the sequencer visits them is left open.
-/
namespace Verif.Model

/-- One endpoint. `chans c` is channel `c` (`connection->channels`, src/vortex_connection_private.h:187): its fields `rd` and `buf` are not
used, as these belong to the connection (`pending_line`, `last_frame`, …) and to the context (`sequencer_send_buffer`).
`down`: the connection was shut down by this side. -/
structure ManyEnd where
  chans : Nat → Endpoint
  rd : ReadState
  buf : Nat
  down : Bool

def ManyEnd.init : ManyEnd := ⟨fun _ => .init, .init, initialBufferSize, false⟩

/-- The two endpoints and the octets written by one and not read by the other. -/
structure ManyLink where
  a : ManyEnd
  b : ManyEnd
  ab : List Byte
  ba : List Byte

def ManyLink.init : ManyLink := ⟨.init, .init, [], []⟩

/-- The operations of `LinkOp`, on channel `c`; the reader reads for all channels. -/
inductive ManyOp
  | send (c : Nat) (content : List Byte)
  | reply (c : Nat) (err : Bool) (content : List Byte)
  | setWindow (c : Nat) (n : Int)
  | round (c : Nat)
  | read (k : Nat)
  deriving DecidableEq, Repr

/-- Channel `c` has changed. A channel that shuts the connection down shuts it down for all:
`__vortex_connection_set_not_connected`, src/vortex_connection.c:5772-5860. -/
def ManyEnd.put (e : ManyEnd) (c : Nat) (x : Endpoint) : ManyEnd :=
  { e with chans := fun d => if d = c then x else e.chans d, down := e.down || x.chan.shut }

/-- `vortex_sequencer_process_channels` for channel `c`, src/vortex_sequencer.c:538-636; the buffer is that of the
context (`buf` of the endpoints of the channels is not used). -/
def ManyEnd.round (e : ManyEnd) (c : Nat) : ManyEnd × List Byte :=
  let r := Endpoint.round { e.chans c with buf := e.buf }
  ({ e.put c { r.1 with buf := (e.chans c).buf } with buf := r.1.buf }, r.2)

/-- What the frame reader asks: src/vortex_frame_factory.c:1786-1836. -/
def ManyEnd.env (chs : List Nat) (e : ManyEnd) : ReadEnv :=
  ⟨fun c => decide (0 ≤ c) && chs.contains c.toNat, fun c seqno size => (e.chans c.toNat).chan.win.check seqno size⟩

/-- The reader thread is told that there is something to read (see `Endpoint.read`): the frame goes to the channel
named in its header, `__vortex_reader_process_socket`, src/vortex_reader.c:342-626. -/
def ManyEnd.read (chs : List Nat) (e : ManyEnd) (available : List Byte) : ManyEnd × List Byte × List Byte :=
  match getNext (e.env chs) e.rd (available.map .byte) with
  | (.frame f rd, rest) =>
    let r := (e.chans f.channel.toNat).handle f.channel f
    ({ e.put f.channel.toNat r.1 with rd := rd }, r.2, rest.filterMap fun | .byte b => some b | _ => none)
  | (.pending rd, rest) => ({ e with rd := rd }, [], rest.filterMap fun | .byte b => some b | _ => none)
  | _ => ({ e with down := true }, [], [])

/-- Steps of `a`. Once it has shut the connection down, it does nothing; nor with a channel that does not exist. -/
def ManyLink.stepA (chs : List Nat) (l : ManyLink) (op : ManyOp) : ManyLink :=
  if l.a.down then l
  else match op with
    | .send c content => if c ∈ chs then { l with a := l.a.put c ((l.a.chans c).send c content) } else l
    | .reply c err content => if c ∈ chs then { l with a := l.a.put c ((l.a.chans c).reply c err content) } else l
    | .setWindow c n =>
      if c ∈ chs then
        { l with a := l.a.put c { l.a.chans c with chan := { (l.a.chans c).chan with win := (l.a.chans c).chan.win.setWindow n } } }
      else l
    | .round c => if c ∈ chs then { l with a := (l.a.round c).1, ab := l.ab ++ (l.a.round c).2 } else l
    | .read k =>
      if l.ba.take k = [] then l
      else
        let r := l.a.read chs (l.ba.take k)
        { l with a := r.1, ab := l.ab ++ r.2.1, ba := r.2.2 ++ l.ba.drop k }

/-- The same two endpoints, named the other way round. -/
def ManyLink.swap (l : ManyLink) : ManyLink := ⟨l.b, l.a, l.ba, l.ab⟩

/-- A step of one of them (`true`: `a`). -/
def ManyLink.step (chs : List Nat) (l : ManyLink) (side : Bool) (op : ManyOp) : ManyLink :=
  if side then l.stepA chs op else (l.swap.stepA chs op).swap

/-- A history. -/
def ManyLink.run (chs : List Nat) (l : ManyLink) : List (Bool × ManyOp) → ManyLink
  | [] => l
  | (s, op) :: ops => (l.step chs s op).run chs ops

end Verif.Model
