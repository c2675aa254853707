/-!
# Memory and threads of the alive check (alive/vortex_alive.c)

One connection on which the check was enabled, with the threads that touch the data of the check: the pool thread that
runs its events, the thread that runs the close handler and the one that creates the channel. The decisions (when a
check fails) are in the model of C40; here they are choices. The release of the data is that of the connection, whose
hash holds it (`vortex_connection_set_data_full`, line 527).
-/
namespace Verif.Model

/-- The event installed (`data->event_id`). -/
inductive AmTimer
  | none
  | create
  | check
  deriving DecidableEq, Repr

/-- Where the thread that runs events is. -/
inductive AmTick
  | idle
  /-- in `__vortex_alive_create_channel` or `__vortex_alive_do_check`, before `vortex_connection_is_ok` -/
  | begun (event : AmTimer)
  /-- `__vortex_alive_trigger_failure` called -/
  | failing (event : AmTimer)
  /-- its line 207 done: `release_ref` -/
  | asked (event : AmTimer) (release : Bool)
  /-- the failure handler returned or the connection was shut down -/
  | told (event : AmTimer) (release : Bool)
  /-- returns true: the pool removes the event -/
  | ending (event : AmTimer)
  deriving DecidableEq, Repr

/-- Where the close handler is. -/
inductive AmClose
  /-- in the list of handlers of the connection -/
  | installed
  /-- removed from it by `vortex_connection_remove_on_close_full` -/
  | removed
  /-- taken from it, its thread is started and has a reference of the connection -/
  | taken
  /-- the event was removed -/
  | unset
  /-- `__vortex_alive_free_reference` done -/
  | released
  /-- the thread ended -/
  | over
  deriving DecidableEq, Repr

/-- Where the creation of the channel is; its thread has a reference of the connection from `waiting` to `over`. -/
inductive AmChan
  | unasked
  | waiting
  /-- in `__vortex_alive_channel_created`, after its first check -/
  | passed
  /-- the event that creates was removed -/
  | unset
  /-- the channel was stored -/
  | stored
  | over
  deriving DecidableEq, Repr

structure Am where
  /-- a failure handler was given -/
  handler : Bool
  /-- `vortex_connection_is_ok` -/
  isOk : Bool
  /-- references of the connection of the application and the rest of the library -/
  others : Nat
  /-- the reference taken at line 519 -/
  own : Bool
  /-- the connection, and the data of the check with it, was released -/
  freed : Bool
  /-- `data->conn` is not NULL -/
  conn : Bool
  /-- `data->channel` is not NULL -/
  chan : Bool
  close : AmClose
  timer : AmTimer
  tick : AmTick
  create : AmChan
  /-- the failure handler was called, and with what: a connection or NULL -/
  told : Option Bool
  /-- times the reference taken at line 519 was dropped -/
  drops : Nat
  /-- the data of the check was used after having been released -/
  bad : Bool
  deriving DecidableEq, Repr

/-- `vortex_alive_enable_check` succeeds, alive/vortex_alive.c:486-543. -/
def Am.enable (handler : Bool) (others : Nat) : Am :=
  ⟨handler, true, others, true, false, true, false, .installed, .create, .idle, .unasked, none, 0, false⟩

def AmClose.hasRef : AmClose → Bool
  | .taken | .unset | .released => true
  | _ => false

def AmChan.hasRef : AmChan → Bool
  | .waiting | .passed | .unset | .stored => true
  | _ => false

/-- After a reference was dropped: `vortex_connection_unref` (src/vortex_connection.c:3050-3089),
`vortex_connection_free` and with it `__vortex_alive_free`, alive/vortex_alive.c:70-90: the event is removed only if
`data->conn` is there to give the context (`vortex_thread_pool_remove_event`, src/vortex_thread_pool.c:1023-1031). -/
def Am.settle (s : Am) : Am :=
  if s.others = 0 ∧ s.own = false ∧ s.close.hasRef = false ∧ s.create.hasRef = false then
    if s.conn then { s with freed := true, timer := .none, bad := true } else { s with freed := true }
  else s

/-- Something uses the data. -/
def Am.touch (s : Am) : Am := if s.freed then { s with bad := true } else s

/-- `__vortex_alive_free_reference`, alive/vortex_alive.c:99-119. -/
def Am.freeReference (s : Am) : Am := { s with conn := false, chan := false, own := false, drops := s.drops + 1 }.settle

/-- `vortex_thread_pool_remove_event` of the event that ran, as the pool does when it returns true. -/
def Am.removeEvent (s : Am) (event : AmTimer) : Am := if s.timer = event then { s with timer := .none } else s

/-- What the running event finds. -/
inductive AmChoice
  /-- nothing to do, or a probe sent: the event stays -/
  | stay
  /-- the channel is there, or the probe was not sent: the event goes -/
  | go
  /-- the channel is requested -/
  | create
  /-- the check fails -/
  | fail
  deriving DecidableEq, Repr

inductive AmOp
  /-- others take and drop references -/
  | take
  | drop
  /-- the connection is closed or fails -/
  | breaks
  /-- the close handlers of a closed connection are run -/
  | runHandlers
  | closeStep
  /-- the pool runs the event -/
  | tickStart
  | tickStep (c : AmChoice)
  /-- the thread that creates the channel goes on: it was created or not -/
  | createStep (ok : Bool)
  deriving DecidableEq, Repr

/-- `__vortex_alive_connection_closed`, alive/vortex_alive.c:121-135, in a thread of its own
(`__vortex_connection_invoke_on_close_do_notify`, src/vortex_connection.c:5005-5042). -/
def Am.stepClose (s : Am) : Am :=
  match s.close with
  | .taken => { s.touch with close := .unset, timer := .none }
  | .unset => { s.touch with close := .released }.freeReference
  | .released => { s with close := .over }.settle
  | _ => s

/-- `__vortex_alive_create_channel` and `__vortex_alive_do_check`, alive/vortex_alive.c:249-290 and :357-435, with
`__vortex_alive_trigger_failure`, :197-242. -/
def Am.stepTick (s : Am) (c : AmChoice) : Am :=
  match s.tick with
  | .idle => s
  | .begun ev =>
    let s := s.touch
    if s.conn && s.isOk then
      match c with
      | .stay => { s with tick := .idle }
      | .go => { s with tick := .ending ev }
      | .create =>
        if ev = .create ∧ s.create = .unasked then { s with tick := .idle, create := .waiting } else { s with tick := .idle }
      | .fail => { s with tick := .failing ev }
    else { s with tick := .ending ev }
  | .failing ev =>
    let s := s.touch
    if s.conn && s.close = .installed then { s with tick := .asked ev true, close := .removed }
    else { s with tick := .asked ev false }
  | .asked ev r =>
    let s := s.touch
    if s.handler then { s with tick := .told ev r, told := some s.conn }
    else { s with tick := .told ev r, isOk := if s.conn then false else s.isOk }
  | .told ev r => if r then { s.touch with tick := .ending ev }.freeReference else { s with tick := .ending ev }
  | .ending ev => { s.removeEvent ev with tick := .idle }

/-- `__vortex_alive_channel_created`, alive/vortex_alive.c:292-355, called by `__vortex_channel_new` with a reference
of the connection (src/vortex_channel.c:1355, 1086, 1094). -/
def Am.stepCreate (s : Am) (ok : Bool) : Am :=
  match s.create with
  | .waiting => if s.conn then { s.touch with create := .passed } else { s.touch with create := .over }.settle
  | .passed => { s.touch with create := .unset, timer := .none }
  | .unset => if ok then { s.touch with create := .stored, chan := true } else { s.touch with create := .over }.settle
  | .stored => { s.touch with create := .over, timer := .check }.settle
  | _ => s

def Am.step (s : Am) : AmOp → Am
  | .take => if 0 < s.others then { s with others := s.others + 1 } else s
  | .drop => if 0 < s.others then { s with others := s.others - 1 }.settle else s
  | .breaks => if s.freed then s else { s with isOk := false }
  | .runHandlers => if !s.isOk && !s.freed && s.close = .installed then { s with close := .taken } else s
  | .closeStep => s.stepClose
  | .tickStart => if s.tick = .idle ∧ s.timer ≠ .none then { s with tick := .begun s.timer } else s
  | .tickStep c => s.stepTick c
  | .createStep ok => s.stepCreate ok

def Am.run (s : Am) : List AmOp → Am
  | [] => s
  | op :: ops => (s.step op).run ops

end Verif.Model
