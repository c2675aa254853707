/-!
# Writing frames to the socket (src/vortex_frame_factory.c, src/vortex_connection.c)

Any number of threads calling `vortex_frame_send_raw` on one connection: the sending thread through
`vortex_sequencer_direct_send` (src/vortex_sequencer.c:791-838, called at line 518), and the reader thread
for its SEQ frames (src/vortex_reader.c:178). Nothing in these functions holds a lock around the call, so
the writes of two calls may alternate; each write is one atomic step.
-/
namespace Verif.Model

/-- Result of `vortex_io_waiting_invoke_wait` for writing, src/vortex_frame_factory.c:1967-2009. -/
inductive WriteWait
  /-- the socket can be written (`default`) -/
  | ready
  /-- 0, -1 or -2: time out or signal -/
  | timeout
  /-- -3, or the socket cannot be added to the set (line 1974) -/
  | fatal
  deriving DecidableEq, Repr

/-- Result of one call of the send handler, and of the wait that follows if there is one. -/
inductive WriteResult
  /-- `n` octets accepted; if they are not all, `w` is the result of waiting -/
  | wrote (n : Nat) (w : WriteWait)
  /-- -1 with EINTR -/
  | interrupted
  /-- -1 with EWOULDBLOCK or EAGAIN, or -2, and the result of waiting -/
  | wouldBlock (w : WriteWait)
  /-- -1 with any other value of errno -/
  | error
  deriving DecidableEq, Repr

/-- A call of `vortex_frame_send_raw` that has not returned. -/
structure WriteCall where
  /-- calls are numbered in the order they begin -/
  id : Nat
  /-- `a_frame`, `frame_size` -/
  frame : List UInt8
  /-- `total` -/
  total : Nat
  tries : Int
  deriving DecidableEq, Repr

structure WriteConfig where
  /-- `ctx->conn_close_on_write_timeout` -/
  tries : Int
  /-- `ctx->disable_conn_close_on_write_timeout` -/
  neverClose : Bool
  deriving DecidableEq, Repr

/-- `tries` at src/vortex_frame_factory.c:1948. -/
def WriteConfig.start (g : WriteConfig) : Int := if g.tries > 0 then g.tries else 3

structure Writers where
  /-- the octets accepted by the socket, each with the call that wrote it -/
  wire : List (Nat × UInt8)
  /-- `vortex_connection_is_ok` -/
  ok : Bool
  /-- calls begun so far -/
  created : Nat
  /-- calls that have not returned -/
  calls : List WriteCall
  deriving DecidableEq, Repr

def Writers.init : Writers := ⟨[], true, 0, []⟩

inductive WriteEvent
  /-- call number `id` for this frame returned this value -/
  | returned (id : Nat) (frame : List UInt8) (r : Bool)
  deriving DecidableEq, Repr

inductive WriteOp
  /-- a thread calls `vortex_frame_send_raw` -/
  | begin (frame : List UInt8)
  /-- the `i`-th of the running calls tries to write -/
  | attempt (i : Nat) (r : WriteResult)
  /-- the connection is shut down by something else -/
  | shutdown
  deriving DecidableEq, Repr

/-- The label `end`: the call returns `total == frame_size` (src/vortex_frame_factory.c:2057-2063). -/
def Writers.leave (s : Writers) (i : Nat) (c : WriteCall) : List WriteEvent × Writers :=
  ([.returned c.id c.frame (c.total == c.frame.length)], { s with calls := s.calls.eraseIdx i })

/-- The connection is shut down and the call ends. -/
def Writers.close (s : Writers) (i : Nat) (c : WriteCall) : List WriteEvent × Writers :=
  { s with ok := false }.leave i c

/-- Label `implement_retry`, src/vortex_frame_factory.c:1961-2009: wait until the socket can be written,
then try again. -/
def Writers.wait (g : WriteConfig) (s : Writers) (i : Nat) (c : WriteCall) :
    WriteWait → List WriteEvent × Writers
  | .fatal => s.close i c
  | .ready => ([], { s with calls := s.calls.set i c })
  | .timeout =>
    let c : WriteCall := { c with tries := c.tries - 1 }
    if g.neverClose then ([], { s with calls := s.calls.set i c })
    else if c.tries = 0 then s.close i c
    else ([], { s with calls := s.calls.set i c })

/-- One turn of `vortex_frame_send_raw` from the label `again`, src/vortex_frame_factory.c:1956-2055.
`vortex_connection_invoke_send` (src/vortex_connection.c:6926-6934) answers -1 on a connection that is not
ok, and errno keeps whatever value it had: the result is then any of those with -1. -/
def Writers.attempt (g : WriteConfig) (s : Writers) (i : Nat) (c : WriteCall) :
    WriteResult → List WriteEvent × Writers
  | .interrupted => ([], s)
  | .wouldBlock w => s.wait g i c w
  | .error => s.close i c
  | .wrote n w =>
    if s.ok = false then s.close i c
    else if n = 0 then s.close i c
    else
      let chunk := (c.frame.drop c.total).take n
      let s : Writers := { s with wire := s.wire ++ chunk.map (fun b => (c.id, b)) }
      let c : WriteCall := { c with total := c.total + chunk.length }
      if c.total = c.frame.length then s.leave i c
      else
        let c : WriteCall := { c with tries := c.tries - 1 }
        if c.tries = 0 then s.leave i c
        else s.wait g i c w

def Writers.step (g : WriteConfig) (s : Writers) : WriteOp → List WriteEvent × Writers
  -- src/vortex_frame_factory.c:1952-1954
  | .begin f =>
    if s.ok then
      ([], { s with created := s.created + 1, calls := s.calls ++ [⟨s.created, f, 0, g.start⟩] })
    else ([.returned s.created f false], { s with created := s.created + 1 })
  | .attempt i r =>
    match s.calls[i]? with
    | none => ([], s)
    | some c => s.attempt g i c r
  | .shutdown => ([], { s with ok := false })

def Writers.run (g : WriteConfig) (s : Writers) : List WriteOp → List WriteEvent × Writers
  | [] => ([], s)
  | op :: ops =>
    let r := s.step g op
    let q := r.2.run g ops
    (r.1 ++ q.1, q.2)

end Verif.Model
