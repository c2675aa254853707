/-!
# Accepting connections (src/vortex_listener.c:80-222)

One connection that a listener accepted, and the list of handlers installed with
`vortex_listener_set_on_connection_accepted`. Handlers are called without lock, so the list can grow meanwhile; nothing is ever
removed from it. Simplified: greetings are not sent at this point (`vo:li:send-greetings` is not set).
-/
namespace Verif.Model

inductive AcceptEvent
  /-- a handler is called -/
  | call (h : Nat)
  /-- the error 554 is sent -/
  | refuse
  /-- the connection is shut down by the library -/
  | shut
  /-- the connection is handed to the reader -/
  | watch
  deriving DecidableEq, Repr

structure Accepting where
  /-- `ctx->listener_on_accept_handlers` -/
  handlers : List Nat
  /-- `iterator` -/
  pos : Nat
  /-- `vortex_connection_is_ok` -/
  ok : Bool
  /-- references to the connection: one of the listener, later one of the reader -/
  refs : Nat
  /-- the reader watches it -/
  watched : Bool
  /-- `vortex_listener_accept_connection` returned -/
  finished : Bool
  deriving DecidableEq, Repr

/-- `__vortex_listener_initial_accept_full`, src/vortex_listener.c:307-338. -/
def Accepting.init (handlers : List Nat) : Accepting := ⟨handlers, 0, true, 1, false, false⟩

inductive AcceptOp
  /-- the next step of the function; the answer of the handler if one is called -/
  | next (answer : Bool)
  /-- a handler is added, by this or another thread -/
  | add (h : Nat)
  /-- the connection is shut down by a handler, or breaks -/
  | close
  deriving DecidableEq, Repr

/-- `vortex_listener_complete_register`, src/vortex_listener.c:196-222, with `vortex_reader_watch_connection`,
src/vortex_reader.c:1526-1560: connections that do not work are not watched. -/
def Accepting.register (s : Accepting) : Accepting × List AcceptEvent :=
  if s.ok then ({ s with watched := true, refs := s.refs + 1 - 1, finished := true }, [.watch])
  else ({ s with refs := s.refs - 1, finished := true }, [])

/-- `vortex_listener_accept_connection`, src/vortex_listener.c:80-190. -/
def Accepting.step (s : Accepting) : AcceptOp → Accepting × List AcceptEvent
  | .next answer =>
    if s.finished then (s, [])
    else
      match s.handlers[s.pos]? with
      | some h =>
        if answer then ({ s with pos := s.pos + 1 }, [.call h])
        else ({ s with ok := false, refs := s.refs - 1, finished := true }, .call h :: (if s.ok then [.refuse, .shut] else []))
      | none => s.register
  | .add h => ({ s with handlers := s.handlers ++ [h] }, [])
  | .close => ({ s with ok := false }, [])

def Accepting.run (s : Accepting) : List AcceptOp → Accepting × List AcceptEvent
  | [] => (s, [])
  | op :: ops => let r := s.step op; let q := r.1.run ops; (q.1, r.2 ++ q.2)

end Verif.Model
