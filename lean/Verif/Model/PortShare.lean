/-!
# Port sharing (src/vortex_listener.c:1710-1748, 2027-2106)

One connection and the port share handlers of its context. Simplified: what a handler answers is input; octets that the session or
another transport reads are taken from the front of what arrived; handlers are not removed (there is no function that does it).
-/
namespace Verif.Model

/-- `VortexPortShareData`: who it is, and the address and port given. -/
structure ShareHandler where
  id : Nat
  addr : Option Nat
  port : Option Nat
  deriving DecidableEq, Repr

/-- The answers of a handler: 1 (or anything else), 2, and -1. -/
inductive ShareAnswer
  | nothing | found | failed
  deriving DecidableEq, Repr

inductive ShareEvent
  /-- a handler is asked about four octets -/
  | ask (h : ShareHandler) (octets : List Nat)
  /-- the connection is given to the transport of the handler -/
  | taken (h : ShareHandler)
  /-- the connection is closed -/
  | shut
  deriving DecidableEq, Repr

structure PortShare where
  /-- `role == VortexRoleListener`: the connection was accepted by a listener -/
  accepted : Bool
  /-- `ctx->port_share_handlers`; NULL is the empty list -/
  handlers : List ShareHandler
  /-- `connection->transport_detected` -/
  detected : Bool
  /-- octets that wait in the socket -/
  avail : List Nat
  /-- the connection works -/
  ok : Bool
  deriving DecidableEq, Repr

def PortShare.init (accepted : Bool) (handlers : List ShareHandler) : PortShare := ⟨accepted, handlers, false, [], true⟩

/-- The loop over the handlers, src/vortex_listener.c:2077-2099: the events, and whether one of them took the connection, or
closed it. `answers` gives the answer of the handler at each position. -/
def askHandlers (octets : List Nat) (answers : Nat → ShareAnswer) : List ShareHandler → Nat → List ShareEvent × ShareAnswer
  | [], _ => ([], .nothing)
  | h :: hs, k =>
    match answers k with
    | .found => ([.ask h octets, .taken h], .found)
    | .failed => ([.ask h octets, .shut], .failed)
    | .nothing => let r := askHandlers octets answers hs (k + 1); (.ask h octets :: r.1, r.2)

/-- `axl_memcmp (buffer, "RPY", 3)`, src/vortex_listener.c:2065. -/
def startsRpy (octets : List Nat) : Bool := octets.take 3 == [82, 80, 89]

/-- `__vortex_listener_check_port_sharing`, src/vortex_listener.c:2027-2106. -/
def PortShare.check (s : PortShare) (answers : Nat → ShareAnswer) : PortShare × List ShareEvent :=
  if s.accepted = false then (s, [])
  else if s.handlers.isEmpty then (s, [])
  else if s.detected then (s, [])
  else if s.avail.length < 4 then (s, [])
  else if startsRpy s.avail then ({ s with detected := true }, [])
  else
    let r := askHandlers (s.avail.take 4) answers s.handlers 0
    match r.2 with
    | .nothing => (s, r.1)
    | .found => ({ s with detected := true }, r.1)
    | .failed => ({ s with ok := false }, r.1)

inductive ShareOp
  /-- the peer sends octets -/
  | arrive (octets : List Nat)
  /-- `vortex_frame_get_next`, src/vortex_frame_factory.c:1607, which then takes `n` octets -/
  | read (answers : Nat → ShareAnswer) (n : Nat)
  /-- `vortex_listener_set_port_sharing_handling` -/
  | install (h : ShareHandler)
  /-- the session is tuned (TLS): a new connection object for the same socket, src/vortex_connection.c:903-1101, which does not
  copy the flag -/
  | tune

def PortShare.step (s : PortShare) : ShareOp → PortShare × List ShareEvent
  | .arrive os => ({ s with avail := s.avail ++ os }, [])
  | .read answers n =>
    if s.ok = false then (s, [])
    else let r := s.check answers; ({ r.1 with avail := r.1.avail.drop n }, r.2)
  | .install h => ({ s with handlers := s.handlers ++ [h] }, [])
  | .tune => ({ s with detected := false }, [])

def PortShare.run (s : PortShare) : List ShareOp → PortShare × List ShareEvent
  | [] => (s, [])
  | op :: ops => let r := s.step op; let q := r.1.run ops; (q.1, r.2 ++ q.2)

end Verif.Model
