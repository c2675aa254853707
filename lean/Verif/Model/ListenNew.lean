/-!
# Starting a listener (src/vortex_listener.c:547-955)

Modelled: any number of calls to the functions `vortex_listener_new*`, each split into the steps at which other threads can come in between, the
table of descriptors of the process, the reader as owner of the listeners it watches, and what the application does with the listeners it was given.
The operating system and the connection actions of the application answer as they like.

Simplified: host names and addresses are numbers; the two address families are one (the port is cut to 16 bits for both, src/vortex_listener.c:640,
and `getaddrinfo` with a number as service); the reader takes a registered listener from its queue in the same step in which it is put there, as it
does nothing to it before it is found not working (C65); an action that replaces the listener is left out; memory never runs out.
-/
namespace Verif.Model

/-- Who opened a descriptor of the process: the application, or a call to start a listener. -/
inductive LnWho
  | app
  | call (i : Nat)
  deriving DecidableEq, Repr

/-- One call of a handler of type `VortexListenerReady` or (`full`) `VortexListenerReadyFull`, src/vortex_handlers.h:53-110: was the status
`VortexOk`, the host and port told, and whether there was a listener reference. -/
structure LnNotice where
  full : Bool
  fine : Bool
  host : Nat
  port : Nat
  conn : Bool
  deriving DecidableEq, Repr

/-- Where a call is; named after what it does next. -/
inductive LnPc
  | idle
  /-- src/vortex_listener.c:582-606 -/
  | resolve
  /-- `socket`, src/vortex_listener.c:597, 611, 621-630 -/
  | socket
  /-- `bind`, src/vortex_listener.c:642-672 -/
  | bind
  /-- `listen`, src/vortex_listener.c:677-682 -/
  | listen
  /-- `getsockname`, src/vortex_listener.c:684-700 -/
  | name
  /-- `vortex_connection_new_empty`, src/vortex_listener.c:825 -/
  | make
  /-- the connection could not be made, src/vortex_listener.c:832 -/
  | again
  /-- src/vortex_listener.c:855-856 -/
  | watch
  /-- src/vortex_listener.c:857-873 -/
  | tell
  /-- src/vortex_listener.c:875-880 -/
  | act
  | done
  deriving DecidableEq, Repr

/-- A call and the listener it made. -/
structure LnCall where
  /-- the arguments: the port, the two handlers, and `register_conn` -/
  port : Int := 0
  plain : Bool := false
  full : Bool := false
  register : Bool := false
  pc : LnPc := .idle
  /-- its socket, and the address it is bound to -/
  fd : Nat := 0
  host : Nat := 0
  bound : Nat := 0
  /-- the listener was made; `vortex_connection_is_ok`; its reference counter -/
  made : Bool := false
  ok : Bool := false
  refs : Nat := 0
  /-- the reader holds its reference; references of the application -/
  held : Bool := false
  user : Nat := 0
  /-- an action refused it; `close_called` -/
  refused : Bool := false
  closed : Bool := false
  /-- the handlers called, and what a call without handlers returned (`some false`: NULL) -/
  told : List LnNotice := []
  value : Option Bool := none
  deriving DecidableEq, Repr

structure LnState where
  calls : Nat → LnCall := fun _ => {}
  /-- the open descriptors -/
  fds : Nat → Option LnWho := fun _ => none
  /-- a call closed a descriptor of somebody else -/
  stolen : Bool := false
  /-- a listener was used after its release, or a null pointer was read -/
  bad : Bool := false

/-- What the system answers at a step: success, a new descriptor, and an address. -/
structure LnEnv where
  yes : Bool := true
  fd : Option Nat := none
  host : Nat := 0
  port : Nat := 0
  deriving DecidableEq, Repr

inductive LnOp
  /-- a call with these arguments -/
  | call (i : Nat) (port : Int) (plain full register : Bool)
  /-- its next step -/
  | step (i : Nat) (e : LnEnv)
  /-- the reader finds the listener not working -/
  | drop (i : Nat)
  /-- the application: `vortex_connection_is_ok`, `vortex_connection_shutdown`, `vortex_connection_close`, `vortex_connection_ref`,
  `vortex_connection_unref` -/
  | check (i : Nat)
  | shutdown (i : Nat)
  | close (i : Nat)
  | ref (i : Nat)
  | unref (i : Nat)
  /-- the application opens, or closes, a descriptor of its own -/
  | appOpen (n : Nat)
  | appClose (n : Nat)
  deriving DecidableEq, Repr

/-- `data->threaded`, src/vortex_listener.c:949. -/
def LnCall.threaded (c : LnCall) : Bool := c.plain || c.full

/-- The end of a call that returns without listener, src/vortex_listener.c:811-819, 874. -/
def LnCall.fail (c : LnCall) : LnCall := { c with pc := .done, value := if c.threaded then none else some false }

/-- The port bound to: the number cut to 16 bits, src/vortex_listener.c:640, 655; for 0 the system takes a free one. -/
def lnPort (asked : Int) (free : Nat) : Nat := if asked % 65536 = 0 then free else (asked % 65536).toNat

def LnState.put (s : LnState) (i : Nat) (c : LnCall) : LnState := { s with calls := fun j => if j = i then c else s.calls j }

/-- `vortex_close_socket` by call `i` (or for its listener): whoever has the number now loses it. -/
def LnState.shut (s : LnState) (n i : Nat) : LnState :=
  { s with fds := fun m => if m = n then none else s.fds m,
           stolen := s.stolen || (match s.fds n with | some w => w != .call i | none => false) }

/-- The handlers given are called with `VortexOk` and the content of a local variable nothing was stored in, src/vortex_listener.c:792, 857-873. -/
def LnCall.notices (c : LnCall) (host port : Nat) : List LnNotice :=
  (if c.plain then [⟨false, true, host, port, false⟩] else []) ++ (if c.full then [⟨true, true, host, port, c.made⟩] else [])

/-- The next step of a call: `vortex_listener_sock_listen_common`, src/vortex_listener.c:542-714, and `__vortex_listener_new`,
src/vortex_listener.c:780-911. -/
def LnState.next (s : LnState) (i : Nat) (e : LnEnv) : LnState :=
  match (s.calls i).pc with
  | .idle => s
  | .done => s
  | .resolve => if e.yes then s.put i { s.calls i with pc := .socket } else s.put i (s.calls i).fail
  | .socket =>
    match e.fd with
    | none => s.put i (s.calls i).fail
    | some n =>
      match s.fds n with
      | some _ => s
      | none =>
        if n ≤ 2 then LnState.put { s with fds := fun m => if m = n then some (.call i) else s.fds m } i (s.calls i).fail
        else LnState.put { s with fds := fun m => if m = n then some (.call i) else s.fds m } i { s.calls i with pc := .bind, fd := n }
  | .bind =>
    if e.yes then s.put i { s.calls i with pc := .listen, host := e.host, bound := lnPort (s.calls i).port e.port }
    else (s.shut (s.calls i).fd i).put i (s.calls i).fail
  | .listen => if e.yes then s.put i { s.calls i with pc := .name } else (s.shut (s.calls i).fd i).put i (s.calls i).fail
  | .name => if e.yes then s.put i { s.calls i with pc := .make } else (s.shut (s.calls i).fd i).put i (s.calls i).fail
  | .make =>
    if e.yes then s.put i { s.calls i with pc := .watch, made := true, ok := true, refs := 1 }
    else (s.shut (s.calls i).fd i).put i { s.calls i with pc := .again }
  | .again => (s.shut (s.calls i).fd i).put i { s.calls i with pc := .tell }
  | .watch => s.put i { s.calls i with pc := .tell, held := (s.calls i).register, user := if (s.calls i).register then 0 else 1 }
  | .tell =>
    if (s.calls i).made then s.put i { s.calls i with pc := .act, told := (s.calls i).notices e.host e.port }
    else s.put i (LnCall.fail { s.calls i with told := (s.calls i).notices e.host e.port })
  | .act =>
    if (s.calls i).refs = 0 then
      LnState.put { s with bad := true } i { s.calls i with pc := .done, value := if (s.calls i).threaded then none else some true }
    else if (s.calls i).ok && !e.yes then
      (s.shut (s.calls i).fd i).put i { s.calls i with
        pc := .done, ok := false, refused := true, value := if (s.calls i).threaded then none else some true }
    else s.put i { s.calls i with pc := .done, value := if (s.calls i).threaded then none else some true }

/-- One step of anybody. The listener functions do nothing to a null reference. The reader: src/vortex_reader.c:993-1004;
`vortex_connection_shutdown`: `__vortex_connection_set_not_connected`, src/vortex_connection.c:5771-5853; `vortex_connection_close`,
src/vortex_connection.c:2826-2923, which for a working listener reads `connection->channels->table` (lines 2856, 573) although listeners have no
channels (lines 936, 990-996); `vortex_connection_ref`, `vortex_connection_unref`, src/vortex_connection.c:2928-3092, and
`vortex_connection_free`, which closes the socket, src/vortex_connection.c:3731-3737. -/
def LnState.step (s : LnState) : LnOp → LnState
  | .call i port plain full register =>
    if (s.calls i).pc = .idle then s.put i { port := port, plain := plain, full := full, register := register, pc := .resolve } else s
  | .step i e => s.next i e
  | .drop i =>
    if (s.calls i).held && !(s.calls i).ok then
      if (s.calls i).refs = 0 then { s with bad := true }
      else s.put i { s.calls i with refs := (s.calls i).refs - 1, held := false }
    else s
  | .check i => if !(s.calls i).made then s else if (s.calls i).refs = 0 then { s with bad := true } else s
  | .shutdown i =>
    if !(s.calls i).made then s
    else if (s.calls i).refs = 0 then { s with bad := true }
    else if (s.calls i).ok then (s.shut (s.calls i).fd i).put i { s.calls i with ok := false }
    else s
  | .close i =>
    if !(s.calls i).made then s
    else if (s.calls i).refs = 0 then { s with bad := true }
    else if (s.calls i).closed then s
    else if (s.calls i).ok then { s with bad := true }
    else s.put i { s.calls i with refs := (s.calls i).refs - 1, user := (s.calls i).user - 1, closed := true }
  | .ref i =>
    if !(s.calls i).made then s
    else if (s.calls i).refs = 0 then { s with bad := true }
    else if (s.calls i).ok then s.put i { s.calls i with refs := (s.calls i).refs + 1, user := (s.calls i).user + 1 }
    else s
  | .unref i =>
    if !(s.calls i).made then s
    else if (s.calls i).refs = 0 then { s with bad := true }
    else if (s.calls i).refs = 1 && (s.calls i).ok then
      (s.shut (s.calls i).fd i).put i { s.calls i with refs := 0, user := (s.calls i).user - 1, ok := false }
    else s.put i { s.calls i with refs := (s.calls i).refs - 1, user := (s.calls i).user - 1 }
  | .appOpen n =>
    match s.fds n with
    | none => { s with fds := fun m => if m = n then some .app else s.fds m }
    | some _ => s
  | .appClose n => if s.fds n = some .app then { s with fds := fun m => if m = n then none else s.fds m } else s

def LnState.run (s : LnState) : List LnOp → LnState
  | [] => s
  | op :: r => (s.step op).run r

end Verif.Model
