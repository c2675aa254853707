/-!
# References held by the objects `vortex.Connection` of the Python bindings

Models `py-vortex/src/py_vortex_connection.c` 124-195 (constructor), 199-245
(collection), 297-352 (`close`), 357-373 (`shutdown`), 1185-1248 (objects made
for a connection that exists), `py_vortex.c` 106-155 (`create_listener`) and
`vortex_connection_close`, `src/vortex_connection.c` 2826-2921.

Simplified: objects and connections are numbered in the order of creation; what
a method does happens at once, what the reader thread does is a step of its own;
the reference taken and dropped again inside `vortex_connection_close` (2857,
2882) is left out, so its special case at 2886 cannot be: the object that calls
holds a reference.  A connection without references is freed.
-/
namespace Verif.Model

/-- `VortexPeerRole`. -/
inductive PyrRole
  | initiator
  | listener
  | master
deriving DecidableEq, Repr

/-- A `VortexConnection`: role, `is_connected`, `close_called`, `ref_count`;
`engine`: the reader has a reference; `owed`: the reference made with a listener
that failed to start, which the reader does not take (2897-2905). -/
structure PyrConn where
  role : PyrRole
  ok : Bool
  closeCalled : Bool
  refs : Nat
  engine : Bool
  owed : Bool
deriving DecidableEq, Repr

/-- A `PyVortexConnection`: `conn` (`none`: NULL, or the object was collected), `close_ref`. -/
structure PyrObj where
  conn : Option Nat
  closeRef : Bool
deriving DecidableEq, Repr

/-- Connections, Python objects, whether freed memory was used. -/
structure PyrState where
  conns : List PyrConn
  objs : List PyrObj
  bad : Bool
deriving DecidableEq, Repr

/-- What the program, the peers and the reader do. -/
inductive PyrOp
  /-- `vortex.Connection (ctx, host, port)`; connected or not -/
  | connect (ok : Bool)
  /-- a connection is accepted by a listener -/
  | accepted
  /-- `vortex.create_listener (ctx, host, port)`; started or not -/
  | listen (ok : Bool)
  /-- an object for this connection is made to be given to a handler -/
  | wrap (c : Nat)
  /-- `o.shutdown ()` -/
  | shutdown (o : Nat)
  /-- `o.close ()`; `agreed`: the channels can be closed -/
  | close (o : Nat) (agreed : Bool)
  /-- the last Python reference to the object is gone -/
  | collect (o : Nat)
  /-- the connection is lost -/
  | lost (c : Nat)
  /-- the reader finds that the connection is not connected and forgets it,
  `src/vortex_reader.c` 1001, 1017, 1114, 1168 -/
  | reader (c : Nat)
deriving DecidableEq, Repr

/-- `vortex_connection_unref`, `src/vortex_connection.c` 3050-3089. -/
def pyrUnref (s : PyrState) (c : Nat) : PyrState :=
  match s.conns[c]? with
  | none => { s with bad := true }
  | some k => if k.refs = 0 then { s with bad := true } else { s with conns := s.conns.set c { k with refs := k.refs - 1 } }

/-- `vortex_connection_shutdown`, `src/vortex_connection.c` 5178-5184; a freed connection is touched. -/
def pyrDown (s : PyrState) (c : Nat) : PyrState :=
  match s.conns[c]? with
  | none => { s with bad := true }
  | some k => if k.refs = 0 then { s with bad := true } else { s with conns := s.conns.set c { k with ok := false } }

/-- The object forgets its connection. -/
def pyrNull (s : PyrState) (o : Nat) : PyrState :=
  match s.objs[o]? with
  | none => s
  | some x => { s with objs := s.objs.set o { x with conn := none } }

/-- `vortex_connection_close`, `src/vortex_connection.c` 2826-2921, with its result. -/
def pyrLibClose (s : PyrState) (c : Nat) (agreed : Bool) : Bool × PyrState :=
  match s.conns[c]? with
  | none => (true, { s with bad := true })
  | some k =>
    if k.refs = 0 then (true, { s with bad := true })
    else if k.closeCalled then (true, s)
    else if k.ok then
      -- 2867-2880: the channels, then the session
      if agreed then
        let s := { s with conns := s.conns.set c { k with closeCalled := true, ok := false } }
        (true, if k.role = .initiator then pyrUnref s c else s)
      else (false, s)
    else
      let s := { s with conns := s.conns.set c { k with closeCalled := true, owed := if k.role = .master then false else k.owed } }
      -- 2903-2906 for a listener, 2911-2915 for an initiator
      (true, if k.role = .listener then s else pyrUnref s c)

/-- `py_vortex_connection_close`, `py_vortex_connection.c` 297-352. -/
def pyrClose (s : PyrState) (o c : Nat) (agreed : Bool) : PyrState :=
  match s.conns[c]? with
  | none => { s with bad := true }
  | some k =>
    if k.refs = 0 then { s with bad := true }
    else if k.role = .master ∧ k.ok = true then pyrNull (pyrUnref (pyrDown s c) c) o
    else
      match pyrLibClose s c agreed with
      | (false, s) => s
      | (true, s) => pyrNull (if k.role = .master then pyrUnref s c else s) o

/-- `py_vortex_connection_dealloc`, `py_vortex_connection.c` 199-245. -/
def pyrCollect (s : PyrState) (x : PyrObj) (o c : Nat) : PyrState :=
  match s.conns[c]? with
  | none => { s with bad := true }
  | some k =>
    if k.refs = 0 then { s with bad := true }
    else pyrNull (pyrUnref (if k.ok ∧ x.closeRef then pyrDown s c else s) c) o

/-- One step. -/
def pyrStep (s : PyrState) : PyrOp → PyrState
  | .connect ok =>
    { s with conns := s.conns ++ [⟨.initiator, ok, false, if ok then 2 else 1, ok, false⟩], objs := s.objs ++ [⟨some s.conns.length, true⟩] }
  | .accepted => { s with conns := s.conns ++ [⟨.listener, true, false, 1, true, false⟩] }
  | .listen ok =>
    { s with conns := s.conns ++ [⟨.master, ok, false, 2, ok, !ok⟩], objs := s.objs ++ [⟨some s.conns.length, true⟩] }
  | .wrap c =>
    match s.conns[c]? with
    | none => s
    | some k =>
      -- the library gives a connection it holds
      if k.refs = 0 then s
      else { s with conns := s.conns.set c { k with refs := k.refs + 1 }, objs := s.objs ++ [⟨some c, false⟩] }
  | .shutdown o =>
    match s.objs[o]? with
    | some ⟨some c, _⟩ => pyrDown s c
    | _ => s
  | .close o agreed =>
    match s.objs[o]? with
    | some ⟨some c, _⟩ => pyrClose s o c agreed
    | _ => s
  | .collect o =>
    match s.objs[o]? with
    | some ⟨some c, r⟩ => pyrCollect s ⟨some c, r⟩ o c
    | _ => s
  | .lost c =>
    match s.conns[c]? with
    | none => s
    | some k => if k.refs = 0 then s else { s with conns := s.conns.set c { k with ok := false } }
  | .reader c =>
    match s.conns[c]? with
    | none => s
    | some k =>
      if k.ok = false ∧ k.engine = true then pyrUnref { s with conns := s.conns.set c { k with engine := false } } c else s

/-- A run from nothing. -/
def pyrRun (ops : List PyrOp) : PyrState := ops.foldl pyrStep ⟨[], [], false⟩

end Verif.Model
