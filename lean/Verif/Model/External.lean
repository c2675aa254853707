/-!
# Connections over an external transport (external/vortex_external.c)

Setup objects, connections and descriptors are numbers. A step is one call of the API, or the beginning or the end of a call of a
handler given by the application. Not modelled: failing allocations, the greetings, the handler called before them, the order of the
two places where a listener closes its descriptor when it is freed (nothing happens in between). A use of released memory leaves the
state as it is.
-/
namespace Verif.Model

/-- `VortexExternalSetup`, external/vortex_external.c:43-56. `owner`: the thread that holds `mutex` during a call of a handler. -/
structure ExSetup where
  alive : Bool
  refs : Int
  flag : Bool
  owner : Option Nat
  host : Option Nat
  deriving DecidableEq, Repr

inductive ExKind
  | dialled
  | listener
  | accepted
  deriving DecidableEq, Repr

/-- A connection: the `setup` of its data, `session` (`none`: -1), the number kept in the data of a listener (`_session`), the host that
is reported, and whether it is not freed yet. `parent`: the listener it was accepted by. -/
structure ExConn where
  kind : ExKind
  setup : Option Nat
  fd : Option Nat
  data : Nat
  host : Option Nat
  parent : Option Nat
  live : Bool
  deriving DecidableEq, Repr

inductive ExOwner
  | app
  | conn (k : Nat)
  deriving DecidableEq, Repr

/-- A call of a send or receive handler in progress. -/
structure ExCall where
  thread : Nat
  conn : Nat
  deriving DecidableEq, Repr

structure ExState where
  setups : List ExSetup
  conns : List ExConn
  /-- who a descriptor was opened for -/
  fds : Nat → Option ExOwner
  calls : List ExCall

def ExState.init : ExState := ⟨[], [], fun _ => none, []⟩

inductive ExOp
  /-- `vortex_external_setup_new` -/
  | newSetup
  /-- `vortex_external_setup_ref`, by a thread -/
  | ref (s : Nat)
  /-- `vortex_external_setup_unref` -/
  | unref (s : Nat)
  /-- `vortex_external_setup_conf` with `VORTEX_EXTERNAL_CONF_MUTEX_IO` -/
  | flag (s : Nat) (b : Bool)
  /-- `vortex_external_setup_conf` with `VORTEX_EXTERNAL_CONF_HOST` -/
  | host (s : Nat) (h : Nat)
  /-- `vortex_external_connection_new`, with or without a handler for the new connection -/
  | connect (fd : Int) (setup : Option Nat) (handler : Bool)
  /-- `vortex_external_listener_new` -/
  | listen (fd : Int) (setup : Option Nat)
  /-- the listener has a connection, for which the handler returns the descriptor -/
  | accept (l : Nat) (fd : Nat)
  /-- a thread calls the send or receive handler -/
  | enter (t c : Nat)
  /-- the handler returns -/
  | leave (t : Nat)
  /-- `vortex_connection_shutdown` -/
  | shutdown (c : Nat)
  /-- the last reference to the connection is released -/
  | free (c : Nat)
  /-- the application opens and closes descriptors -/
  | appOpen (n : Nat)
  | appClose (n : Nat)
  deriving DecidableEq, Repr

inductive ExEvent
  /-- memory that was released is used, or a mutex is unlocked by a thread that does not hold it -/
  | fault
  /-- the thread waits for the mutex -/
  | blocked
  /-- the call makes no sense: it is not part of any history considered -/
  | ignored
  /-- the function returns NULL -/
  | refused
  /-- the function returns the connection -/
  | made (k : Nat)
  /-- the handler for the new connection is called -/
  | notified (k : Nat)
  /-- the setup object is created -/
  | setup (i : Nat)
  /-- the library, for connection `k`, closes number `n`, which was opened for `o` -/
  | closed (k n : Nat) (o : ExOwner)
  deriving DecidableEq, Repr

/-- `vortex_close_socket` for connection `k`. -/
def ExState.close (x : ExState) (k n : Nat) : ExState × List ExEvent :=
  match x.fds n with
  | none => (x, [])
  | some o => ({ x with fds := fun m => if m = n then none else x.fds m }, [.closed k n o])

/-- `vortex_external_setup_unref`, external/vortex_external.c:131-160, once the mutex is taken. -/
def ExSetup.unref (p : ExSetup) : ExSetup := if p.refs - 1 ≤ 0 then { p with refs := p.refs - 1, alive := false } else { p with refs := p.refs - 1 }

/-- The connection is freed: its data first (external/vortex_external.c:205-216, 426-438), then its descriptor
(src/vortex_connection.c:3736-3742). -/
def ExState.freeFds (x : ExState) (c : Nat) (q : ExConn) : ExState × List ExEvent :=
  let x := { x with conns := x.conns.set c { q with live := false, fd := none } }
  let (x, e1) := if q.kind = .listener then x.close c q.data else (x, [])
  let (x, e2) := match q.fd with
    | some n => x.close c n
    | none => (x, [])
  (x, e1 ++ e2)

/-- The setup object used by the calls of handlers of a connection: external/vortex_external.c:222-250, 256-287; connections accepted
by a listener get the handlers of the application themselves (469-471). -/
def ExConn.used (q : ExConn) : Option Nat := if q.kind = .dialled then q.setup else none

/-- external/vortex_external.c:84-160 (setup objects), 169-203 (configuration), 222-287 (calls of handlers), 328-408 (new connections),
440-482 (accepting), 521-594 (listeners); src/vortex_connection.c:5178-5184, 5829-5846 (shutdown), 3736-3742 (free). -/
def ExState.step (x : ExState) : ExOp → ExState × List ExEvent
  | .newSetup => ({ x with setups := x.setups ++ [⟨true, 1, false, none, none⟩] }, [.setup x.setups.length])
  | .ref s =>
    match x.setups[s]? with
    | none => (x, [.ignored])
    | some p =>
      if p.alive = false then (x, [.fault])
      else if p.owner ≠ none then (x, [.blocked])
      else ({ x with setups := x.setups.set s { p with refs := p.refs + 1 } }, [])
  | .unref s =>
    match x.setups[s]? with
    | none => (x, [.ignored])
    | some p =>
      if p.alive = false then (x, [.fault])
      else if p.owner ≠ none then (x, [.blocked])
      else ({ x with setups := x.setups.set s p.unref }, [])
  | .flag s b =>
    match x.setups[s]? with
    | none => (x, [.ignored])
    | some p => if p.alive = false then (x, [.fault]) else ({ x with setups := x.setups.set s { p with flag := b } }, [])
  | .host s h =>
    match x.setups[s]? with
    | none => (x, [.ignored])
    | some p => if p.alive = false then (x, [.fault]) else ({ x with setups := x.setups.set s { p with host := some h } }, [])
  | .connect fd setup _ =>
    if fd < 0 then (x, [.refused])
    else if x.fds fd.toNat ≠ some .app ∨ setup.any (fun s => decide (x.setups.length ≤ s)) then (x, [.ignored])
    else
      ({ x with
          conns := x.conns ++ [⟨.dialled, setup, some fd.toNat, 0, none, none, true⟩]
          fds := fun m => if m = fd.toNat then some (.conn x.conns.length) else x.fds m }, [.made x.conns.length])
  | .listen fd setup =>
    if fd < 0 then (x, [.refused])
    else if x.fds fd.toNat ≠ some .app ∨ setup.any (fun s => decide (x.setups.length ≤ s)) then (x, [.ignored])
    else
      ({ x with
          conns := x.conns ++ [⟨.listener, setup, some fd.toNat, fd.toNat, none, none, true⟩]
          fds := fun m => if m = fd.toNat then some (.conn x.conns.length) else x.fds m }, [.made x.conns.length])
  | .accept l fd =>
    match x.conns[l]? with
    | none => (x, [.ignored])
    | some q =>
      if q.kind ≠ .listener ∨ q.live = false ∨ x.fds fd ≠ none then (x, [.ignored])
      else
        ({ x with
            conns := x.conns ++ [⟨.accepted, none, some fd, 0, none, some l, true⟩]
            fds := fun m => if m = fd then some (.conn x.conns.length) else x.fds m }, [])
  | .enter t c =>
    match x.conns[c]? with
    | none => (x, [.ignored])
    | some q =>
      if q.kind = .listener ∨ q.live = false ∨ x.calls.any (fun r => decide (r.thread = t)) then (x, [.ignored])
      else
        match q.used with
        | none => ({ x with calls := ⟨t, c⟩ :: x.calls }, [])
        | some s =>
          match x.setups[s]? with
          | none => (x, [.fault])
          | some p =>
            if p.alive = false then (x, [.fault])
            else if p.flag then
              if p.owner ≠ none then (x, [.blocked])
              else ({ x with calls := ⟨t, c⟩ :: x.calls, setups := x.setups.set s { p with owner := some t } }, [])
            else ({ x with calls := ⟨t, c⟩ :: x.calls }, [])
  | .leave t =>
    match x.calls.find? (fun r => decide (r.thread = t)) with
    | none => (x, [.ignored])
    | some r =>
      let y := { x with calls := x.calls.filter (fun r => decide (r.thread ≠ t)) }
      match (x.conns[r.conn]?).bind ExConn.used with
      | none => (y, [])
      | some s =>
        match x.setups[s]? with
        | none => (x, [.fault])
        | some p =>
          if p.alive = false then (x, [.fault])
          else if p.flag then
            ({ y with setups := x.setups.set s { p with owner := none } }, if p.owner = some t then [] else [.fault])
          else (y, [])
  | .shutdown c =>
    match x.conns[c]? with
    | none => (x, [.ignored])
    | some q =>
      if q.live = false then (x, [.ignored])
      else match q.fd with
        | none => (x, [])
        | some n => ExState.close { x with conns := x.conns.set c { q with fd := none } } c n
  | .free c =>
    match x.conns[c]? with
    | none => (x, [.ignored])
    | some q =>
      -- calls of handlers hold references of the connection
      if q.live = false ∨ x.calls.any (fun r => decide (r.conn = c)) then (x, [.ignored])
      else match q.setup with
        | none => x.freeFds c q
        | some s =>
          match x.setups[s]? with
          | none => (x, [.fault])
          | some p =>
            if p.alive = false then (x, [.fault])
            else if p.owner ≠ none then (x, [.blocked])
            else ExState.freeFds { x with setups := x.setups.set s p.unref } c q
  | .appOpen n => if x.fds n = none then ({ x with fds := fun m => if m = n then some .app else x.fds m }, []) else (x, [.ignored])
  | .appClose n => if x.fds n = some .app then ({ x with fds := fun m => if m = n then none else x.fds m }, []) else (x, [.ignored])

/-- The calls with their events. -/
def ExState.run : ExState → List ExOp → ExState × List (ExOp × List ExEvent)
  | x, [] => (x, [])
  | x, op :: r => (((x.step op).1.run r).1, (op, (x.step op).2) :: ((x.step op).1.run r).2)

end Verif.Model
