/-!
# The memory of feeders and their end (src/vortex_payload_feeder.c:64-82, 290-520, src/vortex_channel.c:2555-2665)

One feeder: the application has references of it, gives one away with a message, may pause the feeder and send it again, and asks for its
status; the thread that sends messages reads its content and drops the reference of the message (src/vortex_sequencer.c:248-278, 315-384); a
task of the pool calls the handler that is told about the end. Simplified: of the content only its end; the memory of the channel is in C124.
-/
namespace Verif.Model

structure Fd where
  /-- `ref_count` -/
  count : Nat
  /-- references that belong to the application, to messages and to tasks of the pool -/
  app : Nat
  msgs : Nat
  tasks : Nat
  /-- references nobody will ever drop -/
  lost : Nat
  /-- references of the channel that were taken, and given back -/
  chanRefs : Nat
  chanDrops : Nat
  /-- `feeder->channel`, `feeder->ctx` are set -/
  channel : Bool
  ctx : Bool
  paused : Bool
  close : Bool
  /-- the content ended -/
  finished : Bool
  handler : Bool
  /-- `notification_done` -/
  done : Bool
  /-- threads of the application that found it not set, :334; the thread that sends is there -/
  asking : List Nat
  ending : Bool
  /-- messages that ended with the content -/
  completed : Nat
  /-- calls of the handler; with a channel -/
  calls : Nat
  withChannel : Nat
  /-- the pool takes tasks -/
  pool : Bool
  /-- times `PAYLOAD_FEEDER_RELEASE` was called -/
  released : Nat
  /-- released memory was used -/
  bad : Bool
  /-- what the calls that send returned -/
  answers : List Bool
  deriving DecidableEq, Repr

/-- `vortex_payload_feeder_new`, :64-82. -/
def Fd.new : Fd := ⟨1, 1, 0, 0, 0, 0, 0, false, false, false, false, false, false, false, [], false, 0, 0, 0, true, 0, false, []⟩

inductive FdSend
  /-- refused by the checks, :2440-2461; the message could not be queued; it was -/
  | refused | unqueued | queued
  deriving DecidableEq, Repr

inductive FdOp
  | ref | unref
  | send (r : FdSend)
  | pause (close : Bool)
  | setHandler
  /-- the content ends -/
  | eof
  /-- the thread that sends messages looks at the first message; goes on -/
  | round | roundEnd
  /-- a thread of the application asks whether the feeder ended -/
  | ask (t : Nat) | askEnd (t : Nat)
  | task
  /-- the pool takes no more tasks -/
  | poolEnds
  deriving DecidableEq, Repr

/-- `vortex_payload_feeder_free`, :485-518. -/
def Fd.drop (s : Fd) : Fd :=
  if s.count = 0 then { s with bad := true }
  else if s.count = 1 then
    { s with count := 0, released := s.released + 1, chanDrops := if s.channel then s.chanDrops + 1 else s.chanDrops }
  else { s with count := s.count - 1 }

/-- The feeder is used. -/
def Fd.touch (s : Fd) : Fd := if s.count = 0 then { s with bad := true } else s

/-- :336-343, with `vortex_thread_pool_new_task` (src/vortex_thread_pool.c:906-928), which does not tell whether it took the task: it
does nothing without a context, and nothing when the pool ends. -/
def Fd.notify (s : Fd) : Fd :=
  if s.pool ∧ s.ctx then { s with done := true, count := s.count + 1, tasks := s.tasks + 1 }
  else { s with done := true, count := s.count + 1, lost := s.lost + 1 }

def Fd.step (s : Fd) : FdOp → Fd
  -- :437-453
  | .ref => if 0 < s.app then { s with count := s.count + 1, app := s.app + 1 } else s
  | .unref => if s.asking.length < s.app then { s with app := s.app - 1 }.drop else s
  -- src/vortex_channel.c:2558-2596, 2632-2645, 3141-3167
  | .send r =>
    if s.asking.length < s.app then
      match r, s.paused with
      | .refused, _ => { s with answers := s.answers ++ [false] }
      | .unqueued, true => { s with paused := false, ctx := true, answers := s.answers ++ [false] }
      | .queued, true => { s with paused := false, ctx := true, count := s.count + 1, msgs := s.msgs + 1, answers := s.answers ++ [true] }
      | .unqueued, false =>
        { s with app := s.app - 1, chanRefs := s.chanRefs + 1, channel := true, ctx := true, answers := s.answers ++ [false] }.drop
      | .queued, false =>
        { s with app := s.app - 1, msgs := s.msgs + 1, chanRefs := s.chanRefs + 1, channel := true, ctx := true, answers := s.answers ++ [true] }
    else s
  -- :389-400
  | .pause close => if 0 < s.app then { s with paused := true, close := close } else s
  | .setHandler => if 0 < s.app then { s with handler := true } else s
  | .eof => { s with finished := true }
  -- src/vortex_sequencer.c:320-341, 384
  | .round =>
    if 0 < s.msgs ∧ s.ending = false then
      if s.paused then { s.touch with msgs := s.msgs - 1 }.drop
      else if s.finished then
        if s.handler ∧ s.done = false then { s.touch with ending := true }
        else { s.touch with msgs := s.msgs - 1, completed := s.completed + 1 }.drop
      else s.touch
    else s
  | .roundEnd =>
    if s.ending then { s.touch.notify with ending := false, msgs := s.msgs - 1, completed := s.completed + 1 }.drop else s
  -- :319-346
  | .ask t =>
    if s.asking.length < s.app ∧ s.finished ∧ s.handler ∧ s.done = false ∧ t ∉ s.asking then { s with asking := t :: s.asking } else s
  | .askEnd t => if t ∈ s.asking then { s.touch.notify with asking := s.asking.erase t } else s
  -- `__vortex_payload_feeder_is_finished_notification`, :299-308
  | .task =>
    if 0 < s.tasks then
      { s.touch with tasks := s.tasks - 1, calls := s.calls + 1, withChannel := if s.channel then s.withChannel + 1 else s.withChannel }.drop
    else s
  | .poolEnds => { s with pool := false }

def Fd.run (s : Fd) (ops : List FdOp) : Fd := ops.foldl Fd.step s

end Verif.Model
