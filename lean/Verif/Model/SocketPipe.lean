/-!
# A pipe made of two sockets (C154)

`vortex_support_pipe` (src/vortex_support.c:966-1085): a listener at a port of the loopback interface, a connection to it, and
`vortex_listener_accept` (src/vortex_listener.c:483-494) of the connection that waits first.

Simplifications: what the system calls answer, and the connections that others make meanwhile, are given beforehand; the
options of the sockets are left out; whether the connection is complete when `connect` returns does not matter.
-/
namespace Verif.Model

/-- Who is at the other end of a connection. -/
inductive PipPeer
  /-- the socket of the pipe itself -/
  | own (fd : Nat)
  /-- someone else, who connected to the port -/
  | other (name : Nat)
  deriving DecidableEq, Repr

/-- What the system does. -/
structure PipWorld where
  /-- `socket` for the listener, :983 -/
  listener : Option Nat
  bind : Bool
  listen : Bool
  /-- `getsockname` works; otherwise the port read is whatever was in memory -/
  name : Bool
  /-- `socket` for the read side, :1038 -/
  client : Option Nat
  /-- `connect` works or is in progress, :1057-1058 -/
  connect : Bool
  /-- those who connected to the port before the process did -/
  before : List Nat
  /-- … and after it -/
  after : List Nat
  /-- descriptor for the connection accepted; `none`: `accept` fails, though a connection waits -/
  accepted : Option Nat
  deriving DecidableEq, Repr

/-- How the call ends. -/
inductive PipAnswer
  | failed
  /-- 0, with the two descriptors and the peer of the second one -/
  | made (a b : Nat) (peer : PipPeer)
  /-- it waits in `accept` -/
  | waits
  deriving DecidableEq, Repr

/-- The connections that wait at the listener, in order: the one of the process is among them if it knows the port (:1054). -/
def pipBacklog (w : PipWorld) (c : Nat) : List PipPeer :=
  w.before.map .other ++ (if w.name then [.own c] else []) ++ w.after.map .other

/-- The call: how it ends, and the descriptors it leaves open. -/
def pipMake (w : PipWorld) : PipAnswer × List Nat :=
  match w.listener with
  | none => (.failed, [])
  | some l =>
    -- :983-988: returns without closing it
    if l ≤ 2 then (.failed, [l])
    -- :1008-1020
    else if !w.bind then (.failed, [])
    -- :1022-1026
    else if !w.listen then (.failed, [])
    -- :1029: `getsockname` answers -1, which is not less than -1
    else
      match w.client with
      -- :1039-1043
      | none => (.failed, [])
      | some c =>
        -- :1058-1063
        if !w.connect then (.failed, [c])
        else
          match pipBacklog w c with
          | [] => (.waits, [l, c])
          | p :: _ =>
            match w.accepted with
            -- :1069-1073
            | none => (.failed, [c])
            | some d => if d = 0 then (.failed, [c, d]) else (.made c d p, [c, d])

end Verif.Model
