/-!
# Shutting down a listener (src/vortex_listener.c:1930-2013)

Simplified: the call without `also_created_conns` is left out (it only closes the listener). Modelled: the connections that the reader
watches, and one call to `vortex_listener_shutdown (listener, axl_true)`. The visit to all connections
is done by the reader (C67) in one step, as it does nothing else meanwhile. The same reader accepts connections.
-/
namespace Verif.Model

/-- A connection: its id, the id of the listener that accepted it (`none` for connections opened by this side), and
`vortex_connection_is_ok`. -/
structure ListenedConn where
  id : Nat
  listener : Option Nat
  ok : Bool
  deriving DecidableEq, Repr

/-- Where the call is. -/
inductive ShutPc
  /-- not called -/
  | idle
  /-- it waits for the visit, src/vortex_listener.c:2000 -/
  | waiting
  /-- the visit is done -/
  | visited
  /-- it returned -/
  | returned
  deriving DecidableEq, Repr

structure ListenShut where
  conns : List ListenedConn
  /-- listeners that work -/
  open_ : List Nat
  /-- the call for listener `target` -/
  target : Nat
  pc : ShutPc
  deriving DecidableEq, Repr

inductive ShutOp
  /-- the reader accepts a connection at a listener that works, or one opened by this side is registered -/
  | accept (id : Nat) (listener : Option Nat)
  /-- a connection breaks -/
  | lose (id : Nat)
  /-- the next step of the call, or of the reader for it -/
  | next
  deriving DecidableEq, Repr

/-- `__vortex_listener_shutdown_foreach`, src/vortex_listener.c:1930-1963. -/
def shutVisit (target : Nat) (c : ListenedConn) : ListenedConn := if c.listener = some target then { c with ok := false } else c

/-- `vortex_listener_shutdown`, src/vortex_listener.c:1976-2013. -/
def ListenShut.step (s : ListenShut) : ShutOp → ListenShut
  | .accept id (some l) => if s.open_.contains l then { s with conns := s.conns ++ [⟨id, some l, true⟩] } else s
  | .accept id none => { s with conns := s.conns ++ [⟨id, none, true⟩] }
  | .lose id => { s with conns := s.conns.map fun c => if c.id = id then { c with ok := false } else c }
  | .next =>
    match s.pc with
    | .idle => if s.open_.contains s.target then { s with pc := .waiting } else { s with pc := .returned }
    | .waiting => { s with conns := s.conns.map (shutVisit s.target), pc := .visited }
    | .visited => { s with open_ := s.open_.filter (· != s.target), pc := .returned }
    | .returned => s

def ListenShut.run (s : ListenShut) (ops : List ShutOp) : ListenShut := ops.foldl ListenShut.step s

end Verif.Model
