/-!
# References of pull events (pull/vortex_pull.c)

An event holds references of the connection, the channel and the frame it tells about. The counters are counted in
one step each (C30 tells what this takes; frames have no mutex). The masks, the wait for an event and the answers
that an event asks for are modelled elsewhere (C41, C110).
-/
namespace Verif.Model

/-- What an event refers to. -/
inductive PvKind
  | conn
  | chan
  | frame
  deriving DecidableEq, Repr

/-- A connection, a channel or a frame. -/
structure PvObj where
  kind : PvKind
  /-- `ref_count` -/
  refs : Nat
  /-- how many of these references are of the rest of the library or the application, apart from events -/
  others : Nat
  /-- connections: `vortex_connection_is_ok` -/
  isOk : Bool
  /-- channels: `channel->connection`, for which the channel has no reference -/
  parent : Nat
  /-- times released -/
  frees : Nat
  deriving DecidableEq, Repr

/-- `struct _VortexEvent`, pull/vortex_pull.c:52-85. -/
structure PvEvent where
  /-- `ref_count` -/
  refs : Nat
  conn : Option Nat
  chan : Option Nat
  frame : Option Nat
  /-- in the queue of pending events -/
  queued : Bool
  /-- references the application has -/
  held : Nat
  frees : Nat
  deriving DecidableEq, Repr

structure Pv where
  /-- `vortex_pull_init` done: the context has the queue -/
  isOn : Bool
  objs : List PvObj
  /-- in the order they were made, which is the order of the queue -/
  events : List PvEvent
  /-- something was used after having been released -/
  bad : Bool
  deriving DecidableEq, Repr

def Pv.start : Pv := ⟨false, [], [], false⟩

inductive PvOp
  /-- `vortex_pull_init` -/
  | init
  /-- a connection, channel (of a connection) or frame is made -/
  | make (kind : PvKind) (parent : Nat)
  /-- something that is no event takes and drops a reference -/
  | otherRef (o : Nat)
  | otherDrop (o : Nat)
  /-- the connection is closed or fails -/
  | broken (o : Nat)
  /-- something happens, `closing`: that the connection is closed -/
  | happen (closing : Bool) (conn : Nat) (chan frame : Option Nat)
  /-- `vortex_pull_next_event` with something in the queue -/
  | next
  /-- `vortex_event_ref` and `vortex_event_unref` by the application -/
  | evRef (i : Nat)
  | evUnref (i : Nat)
  /-- the application uses what `vortex_event_get_conn`, `_channel` and `_frame` give, if anything -/
  | useConn (i : Nat)
  | useChan (i : Nat)
  | useFrame (i : Nat)
  /-- the application uses `vortex_channel_get_connection` of the channel of the event, if any -/
  | useChanConn (i : Nat)
  /-- `vortex_pull_cleanup` -/
  | cleanup
  deriving DecidableEq, Repr

/-- `vortex_connection_unref` (src/vortex_connection.c:3050-3089), `vortex_channel_unref2`
(src/vortex_channel.c:5050-5087) and `vortex_frame_unref` (src/vortex_frame_factory.c:2110-2124), the counter and
the release in one step. -/
def Pv.objUnref (s : Pv) (o : Nat) : Pv :=
  match s.objs[o]? with
  | none => s
  | some b =>
    if b.frees ≠ 0 then { s with bad := true }
    else { s with objs := s.objs.set o { b with refs := b.refs - 1, frees := if b.refs - 1 = 0 then 1 else 0 } }

def Pv.objUnrefOpt (s : Pv) : Option Nat → Pv
  | none => s
  | some o => s.objUnref o

/-- `vortex_connection_ref_internal` (src/vortex_connection.c:2928-2960), `vortex_channel_ref2`
(src/vortex_channel.c:5007-5037) and `vortex_frame_ref` (src/vortex_frame_factory.c:2090-2100) on something that has
a reference already. -/
def Pv.objRef (s : Pv) (o : Nat) : Pv :=
  match s.objs[o]? with
  | none => s
  | some b =>
    if b.frees ≠ 0 then { s with bad := true }
    else { s with objs := s.objs.set o { b with refs := b.refs + 1 } }

def Pv.objRefOpt (s : Pv) : Option Nat → Pv
  | none => s
  | some o => s.objRef o

/-- `vortex_connection_is_ok` -/
def Pv.okConn (s : Pv) (o : Nat) : Bool := match s.objs[o]? with | some b => b.isOk | none => false

/-- `vortex_pull_event_marshaller`, pull/vortex_pull.c:192-247, and `__vortex_event_new_empty`, :99-145, called by the
handlers at :251-295 and :991-1191: connections are referenced if they are ok, or in any case to tell that they were
closed. The event of a start is queued a bit later by its handler. No event is made once the queue is gone. -/
def Pv.marshal (s : Pv) (closing : Bool) (conn : Nat) (chan frame : Option Nat) : Pv :=
  if s.isOn then
    let named : Option Nat := if closing || s.okConn conn then some conn else none
    let s := ((s.objRefOpt named).objRefOpt chan).objRefOpt frame
    { s with events := s.events ++ [⟨1, named, chan, frame, true, 0, 0⟩] }
  else s

/-- `vortex_event_unref`, pull/vortex_pull.c:567-612; `app`: by the application, otherwise for the queue. -/
def Pv.evUnref (s : Pv) (app : Bool) (i : Nat) : Pv :=
  match s.events[i]? with
  | none => s
  | some e =>
    if e.frees ≠ 0 then { s with bad := true }
    else
      let e' : PvEvent := if app then { e with held := e.held - 1 } else { e with queued := false }
      if e.refs - 1 ≠ 0 then { s with events := s.events.set i { e' with refs := e.refs - 1 } }
      else
        let s : Pv := { s with events := s.events.set i { e' with refs := 0, conn := none, chan := none, frame := none, frees := 1 } }
        ((s.objUnrefOpt e.frame).objUnrefOpt e.conn).objUnrefOpt e.chan

/-- Something released is used. -/
def Pv.useObj (s : Pv) : Option Nat → Pv
  | none => s
  | some o => match s.objs[o]? with | some b => if b.frees ≠ 0 then { s with bad := true } else s | none => s

/-- A getter on an event (pull/vortex_pull.c:617-727) and the use of what it gives. -/
def Pv.useEvent (s : Pv) (i : Nat) (f : PvEvent → Option Nat) : Pv :=
  match s.events[i]? with
  | none => s
  | some e => if e.frees ≠ 0 then { s with bad := true } else s.useObj (f e)

/-- `vortex_channel_get_connection` -/
def Pv.parentOf (s : Pv) : Option Nat → Option Nat
  | none => none
  | some o => match s.objs[o]? with | some b => some b.parent | none => none

/-- `vortex_pull_cleanup`, pull/vortex_pull.c:398-438: the events in the queue are dropped. -/
def Pv.dropQueued (s : Pv) (i : Nat) : Pv :=
  match s.events[i]? with
  | none => s
  | some e => if e.queued then s.evUnref false i else s

def Pv.step (s : Pv) : PvOp → Pv
  -- pull/vortex_pull.c:336-389
  | .init => { s with isOn := true }
  | .make kind parent => { s with objs := s.objs ++ [⟨kind, 1, 1, true, parent, 0⟩] }
  | .otherRef o =>
    match s.objs[o]? with
    | none => s
    | some b =>
      if b.frees ≠ 0 then { s with bad := true }
      else { s with objs := s.objs.set o { b with refs := b.refs + 1, others := b.others + 1 } }
  | .otherDrop o =>
    match s.objs[o]? with
    | none => s
    | some b =>
      if b.frees ≠ 0 then { s with bad := true }
      else { s with objs := s.objs.set o { b with refs := b.refs - 1, others := b.others - 1, frees := if b.refs - 1 = 0 then 1 else 0 } }
  | .broken o => match s.objs[o]? with | none => s | some b => { s with objs := s.objs.set o { b with isOk := false } }
  | .happen closing conn chan frame => s.marshal closing conn chan frame
  -- pull/vortex_pull.c:518-530: the first of the queue, whose reference goes to the application
  | .next =>
    match s.events.findIdx? (·.queued) with
    | none => s
    | some i => match s.events[i]? with | none => s | some e => { s with events := s.events.set i { e with queued := false, held := e.held + 1 } }
  -- :542-557
  | .evRef i =>
    match s.events[i]? with
    | none => s
    | some e => if e.frees ≠ 0 then { s with bad := true } else { s with events := s.events.set i { e with refs := e.refs + 1, held := e.held + 1 } }
  | .evUnref i => s.evUnref true i
  | .useConn i => s.useEvent i (·.conn)
  | .useChan i => s.useEvent i (·.chan)
  | .useFrame i => s.useEvent i (·.frame)
  | .useChanConn i => s.useEvent i fun e => s.parentOf e.chan
  | .cleanup => if s.isOn then { ((List.range s.events.length).foldl Pv.dropQueued s) with isOn := false } else s

def Pv.run (s : Pv) : List PvOp → Pv
  | [] => s
  | op :: ops => (s.step op).run ops

end Verif.Model
