/-!
# Close handlers of a connection (src/vortex_connection.c)

The lists of close handlers, the threads that shut the connection down, and
`vortex_connection_reconnect`. Every installation of a handler is an object of its own, numbered in order;
`key` stands for the pair (handler, user data) given by the application. Memory allocation does not fail.
-/
namespace Verif.Model

structure CloseHd where
  id : Nat
  key : Nat
  deriving DecidableEq, Repr

/-- Where a thread is in `__vortex_connection_set_not_connected` (src/vortex_connection.c:5818-5854), after it
has marked the connection as broken. -/
inductive CloseStage
  /-- at line 5821 -/
  | enterPlain
  /-- in the loop of lines 5098-5113, with the mutex -/
  | loopPlain
  /-- line 5109: about to start the handler taken from the list -/
  | startPlain (id : Nat)
  /-- at line 5828 -/
  | enterFull
  /-- in the loop of lines 5071-5093, with the mutex -/
  | loopFull
  /-- line 5086 -/
  | startFull (id : Nat)
  /-- line 5835 -/
  | socket
  deriving DecidableEq, Repr

structure Closers where
  connected : Bool
  /-- `ctx->vortex_exit` -/
  exiting : Bool
  /-- `connection->session`, sockets numbered in order of creation; `none`: -1 -/
  session : Option Nat
  sockets : Nat
  /-- handlers installed -/
  created : Nat
  /-- `connection->on_close`, NULL until the first one is installed -/
  plain : Option (List CloseHd)
  /-- `connection->on_close_full` -/
  full : Option (List CloseHd)
  /-- threads shutting the connection down -/
  drains : List CloseStage
  deriving DecidableEq, Repr

/-- A connection just made. -/
def Closers.init : Closers := ⟨true, false, some 0, 1, 0, none, none, []⟩

inductive CloseEvent
  /-- a handler of `vortex_connection_set_on_close` is installed -/
  | installed (id : Nat)
  /-- a handler of `vortex_connection_set_on_close_full2` is installed, at the end or at the front -/
  | installedFull (last : Bool) (id : Nat)
  /-- `vortex_connection_remove_on_close_full` returned true -/
  | removed (id : Nat)
  /-- `vortex_connection_remove_on_close_full` returned false -/
  | notFound (key : Nat)
  /-- a thread was started for the handler, or could not be -/
  | started (id : Nat)
  | lost (id : Nat)
  | socketClosed (n : Nat)
  deriving DecidableEq, Repr

inductive CloseOp
  | install (key : Nat)
  | installFull (last : Bool) (key : Nat)
  | remove (key : Nat)
  /-- `vortex_connection_shutdown`, or any of the functions that find the connection broken -/
  | shutdown
  /-- the `i`-th thread in there goes on; `ok`: `vortex_thread_create` works -/
  | advance (i : Nat) (ok : Bool)
  /-- `vortex_connection_reconnect` that works -/
  | reconnect
  /-- `vortex_exit_ctx` begins -/
  | exit
  deriving DecidableEq, Repr

/-- The loop of `vortex_connection_remove_on_close_full`, src/vortex_connection.c:6855-6876. -/
def removeKey (key : Nat) : List CloseHd → Option (Nat × List CloseHd)
  | [] => none
  | h :: hs =>
    if h.key = key then some (h.id, hs)
    else match removeKey key hs with
      | none => none
      | some (id, rest) => some (id, h :: rest)

/-- One turn of a thread in `__vortex_connection_set_not_connected`, src/vortex_connection.c:5818-5854, and
`__vortex_connection_invoke_on_close`, lines 5053-5121. The check that the list is not NULL and the one of
`vortex_exit` (line 5061) are one step here. -/
def Closers.advance (s : Closers) (i : Nat) (ok : Bool) : CloseStage → List CloseEvent × Closers
  | .enterPlain =>
    ([], { s with drains := s.drains.set i (if s.plain.isNone || s.exiting then .enterFull else .loopPlain) })
  | .loopPlain =>
    match s.plain with
    | some (h :: hs) => ([], { s with plain := some hs, drains := s.drains.set i (.startPlain h.id) })
    | _ => ([], { s with drains := s.drains.set i .enterFull })
  | .startPlain id =>
    -- lines 5005-5043
    ([if ok then .started id else .lost id], { s with drains := s.drains.set i .loopPlain })
  | .enterFull =>
    ([], { s with drains := s.drains.set i (if s.full.isNone || s.exiting then .socket else .loopFull) })
  | .loopFull =>
    match s.full with
    | some (h :: hs) => ([], { s with full := some hs, drains := s.drains.set i (.startFull h.id) })
    | _ => ([], { s with drains := s.drains.set i .socket })
  | .startFull id =>
    ([if ok then .started id else .lost id], { s with drains := s.drains.set i .loopFull })
  | .socket =>
    -- lines 5835-5848, `close_session` set
    match s.session with
    | none => ([], { s with drains := s.drains.eraseIdx i })
    | some n => ([.socketClosed n], { s with session := none, drains := s.drains.eraseIdx i })

def Closers.step (s : Closers) : CloseOp → List CloseEvent × Closers
  -- src/vortex_connection.c:6684-6712
  | .install key =>
    ([.installed s.created],
      { s with plain := some (s.plain.getD [] ++ [⟨s.created, key⟩]), created := s.created + 1 })
  -- src/vortex_connection.c:6769-6816
  | .installFull last key =>
    ([.installedFull last s.created],
      { s with
        full := some (if last then s.full.getD [] ++ [⟨s.created, key⟩] else ⟨s.created, key⟩ :: s.full.getD [])
        created := s.created + 1 })
  -- src/vortex_connection.c:6840-6882
  | .remove key =>
    match removeKey key (s.full.getD []) with
    | none => ([.notFound key], s)
    | some (id, rest) => ([.removed id], { s with full := some rest })
  -- src/vortex_connection.c:5791-5818
  | .shutdown =>
    if s.connected then ([], { s with connected := false, drains := s.drains ++ [.enterPlain] }) else ([], s)
  | .advance i ok =>
    match s.drains[i]? with
    | none => ([], s)
    | some stage => s.advance i ok stage
  -- src/vortex_connection.c:2725-2793 and 2070-2086
  | .reconnect =>
    if s.connected then ([], s)
    else ([], { s with connected := true, session := some s.sockets, sockets := s.sockets + 1 })
  | .exit => ([], { s with exiting := true })

def Closers.run (s : Closers) : List CloseOp → List CloseEvent × Closers
  | [] => ([], s)
  | op :: ops =>
    let r := s.step op
    let q := r.2.run ops
    (r.1 ++ q.1, q.2)

end Verif.Model
