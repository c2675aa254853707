/-!
# Waiting for the end of a SASL negotiation (sasl/vortex_sasl.c)

One call of `vortex_sasl_start_auth_sync` (:1428-1480): the caller, the task that negotiates, the queue between them and
the references of the connection. What the negotiation finds is a choice here (it is modelled for C57); the checks made
before the task starts are the schedules in which the task ends with an early failure before the caller waits.
-/
namespace Verif.Model

/-- What is in the queue: the status, or the message that explains it. -/
inductive SyItem
  | status (ok : Bool)
  | message
  deriving DecidableEq, Repr

/-- Where the task is: `vortex_sasl_start_auth` (:1297-1362) and `__vortex_sasl_start_auth` (:1042-1191). -/
inductive SyTask
  /-- until `vortex_connection_ref` (:1134); the connection is only a pointer (:1343) -/
  | begun
  /-- in `__vortex_sasl_initiator_do_steps`, with a reference -/
  | steps
  /-- notifications to make; what was done of the first one: nothing, status pushed, message pushed -/
  | notes (pending : List Bool) (done : Nat)
  | over
  deriving DecidableEq, Repr

/-- Where the caller is. -/
inductive SyCaller
  /-- in `vortex_async_queue_timedpop`, :1458 -/
  | waiting
  /-- the status was taken -/
  | status (ok : Bool)
  /-- the message was taken -/
  | message (ok : Bool)
  /-- returned, with that status -/
  | returned (ok : Bool) (timeout : Bool)
  deriving DecidableEq, Repr

structure Sy where
  /-- the caller gave places for the status and the message -/
  places : Bool
  task : SyTask
  caller : SyCaller
  queue : List SyItem
  /-- references of the queue -/
  refs : Nat
  /-- the queue was released -/
  gone : Bool
  /-- the connection holds the queue (`vortex_connection_set_data_full`, :1449) -/
  stored : Bool
  /-- the reference of the connection of the caller -/
  callerRef : Bool
  /-- that of the task -/
  taskRef : Bool
  /-- `SASL_IS_AUTHENTICATED` -/
  authed : Bool
  /-- released memory or NULL was used -/
  bad : Bool
  deriving DecidableEq, Repr

/-- The queue is created, its reference taken for the task, and stored, :1436-1451. -/
def Sy.start (places : Bool) : Sy :=
  ⟨places, .begun, .waiting, [], 2, false, true, true, false, false, false⟩

def Sy.connGone (s : Sy) : Bool := !s.callerRef && !s.taskRef

/-- The connection is used. -/
def Sy.touchConn (s : Sy) : Sy := if s.connGone then { s with bad := true } else s

/-- `vortex_async_queue_unref`, src/vortex_thread.c:1430-1466. -/
def Sy.unref (s : Sy) : Sy :=
  if s.gone then { s with bad := true }
  else if s.refs = 1 then { s with refs := 0, gone := true, queue := [] }
  else { s with refs := s.refs - 1 }

/-- `vortex_async_queue_push`, src/vortex_thread.c:1065-1085. -/
def Sy.push (s : Sy) (i : SyItem) : Sy :=
  if s.gone then { s with bad := true } else { s with queue := s.queue ++ [i] }

/-- After a reference of the connection was dropped: its data is released with it. -/
def Sy.settle (s : Sy) : Sy :=
  if s.connGone && s.stored then { s with stored := false }.unref else s

/-- What the task finds. -/
inductive SyChoice
  /-- it fails before it has a reference: initial step, channel, reference -/
  | early
  /-- it gets a reference -/
  | proceed
  /-- the negotiation succeeds or fails -/
  | result (ok : Bool)
  /-- the reply cannot be parsed: `__vortex_sasl_get_base64_blob` (:788-862) notifies, and its caller does again (:1160) -/
  | malformed
  deriving DecidableEq, Repr

/-- A notification, `__vortex_sasl_notify` (:483-522) with `__vortex_sasl_start_auth_sync_process` (:1368-1384). -/
def Sy.taskStep (s : Sy) (c : SyChoice) : Sy :=
  match s.task with
  | .begun =>
    match c with
    | .early => { s.touchConn with task := .notes [false] 0 }
    | .proceed => if s.connGone then { s with bad := true, task := .over } else { s with task := .steps, taskRef := true }
    | _ => s
  | .steps =>
    match c with
    | .result ok => { s with task := .notes [ok] 0 }
    | .malformed => { s with task := .notes [false, false] 0 }
    | _ => s
  | .notes [] _ => { s with task := .over, taskRef := false }.settle
  | .notes (b :: bs) 0 => { s.touchConn with authed := b, task := .notes (b :: bs) 1 }.push (.status b)
  | .notes (b :: bs) 1 => { s with task := .notes (b :: bs) 2 }.push .message
  | .notes (_ :: bs) _ => { s with task := .notes bs 0 }.unref
  | .over => s

/-- The caller goes on; it waits while the queue is empty, :1458-1479. -/
def Sy.callerStep (s : Sy) : Sy :=
  match s.caller with
  | .waiting =>
    if s.gone then { s with bad := true, caller := .returned false true } else
    match s.queue with
    | .status b :: q => { s with caller := .status b, queue := q }
    | .message :: q => { s with caller := .status false, queue := q, bad := true }
    | [] => s
  | .status b =>
    if s.gone then { s with bad := true, caller := .message b } else
    match s.queue with
    | _ :: q => { s with caller := .message b, queue := q }
    | [] => s
  | .message b =>
    if s.stored then { s with stored := false, caller := .returned b false }.unref else { s with caller := .returned b false }
  | .returned _ _ => s

/-- The wait of the caller ends without anything in the queue, :1459-1464: the places are written without checks and
nothing else is done. -/
def Sy.timeout (s : Sy) : Sy :=
  match s.caller with
  | .waiting =>
    if s.gone then { s with bad := true, caller := .returned false true }
    else if s.queue = [] then
      if s.places then { s with caller := .returned false true } else { s with caller := .returned false true, bad := true }
    else s
  | _ => s

inductive SyOp
  | task (c : SyChoice)
  | caller
  | timeout
  /-- once the call returned, the connection is released -/
  | release
  deriving DecidableEq, Repr

def Sy.step (s : Sy) : SyOp → Sy
  | .task c => s.taskStep c
  | .caller => s.callerStep
  | .timeout => s.timeout
  | .release =>
    match s.caller with
    | .returned _ _ => if s.callerRef then { s with callerRef := false }.settle else s
    | _ => s

def Sy.run (s : Sy) : List SyOp → Sy
  | [] => s
  | op :: ops => (s.step op).run ops

end Verif.Model
