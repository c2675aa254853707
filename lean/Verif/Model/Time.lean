/-!
# Time arithmetic and timed events (src/vortex_support.c, src/vortex_thread.c, src/vortex_thread_pool.c)

`tv_sec` and `tv_usec` are 64 bit; they are modelled as unbounded integers. C's `/` and `%` truncate
(`Int.tdiv`, `Int.tmod`).
-/
namespace Verif.Model

/-- `struct timeval`. -/
structure TimeVal where
  sec : Int
  usec : Int
  deriving DecidableEq, Repr

/-- `vortex_timeval_substract`, src/vortex_support.c:897-921: return value, result, and the second argument,
which is changed. -/
def timevalSubtract (a b : TimeVal) : Bool × TimeVal × TimeVal :=
  let b :=
    if a.usec < b.usec then
      let nsec := (b.usec - a.usec).tdiv 1000000 + 1
      ⟨b.sec + nsec, b.usec - 1000000 * nsec⟩
    else b
  let b :=
    if a.usec - b.usec > 1000000 then
      let nsec := (a.usec - b.usec).tdiv 1000000
      ⟨b.sec - nsec, b.usec + 1000000 * nsec⟩
    else b
  (decide (a.sec < b.sec), ⟨a.sec - b.sec, a.usec - b.usec⟩, b)

/-- Time limit computed by `vortex_cond_timedwait`, src/vortex_thread.c:909-921, in microseconds
instead of nanoseconds. -/
def condDeadline (now : TimeVal) (microseconds : Int) : TimeVal :=
  let sec := if microseconds + now.usec > 1000000 then now.sec + (microseconds + now.usec).tdiv 1000000 else now.sec
  ⟨sec, (microseconds + now.usec).tmod 1000000⟩

/-- `__vortex_thread_pool_increase_stamp`, src/vortex_thread_pool.c:102-114. -/
def increaseStamp (next : TimeVal) (delay : Int) : TimeVal :=
  ⟨if next.usec + delay > 1000000 then next.sec + (next.usec + delay).tdiv 1000000 else next.sec,
   (next.usec + delay).tmod 1000000⟩

/-- The comparison of src/vortex_thread_pool.c:172-174. -/
def TimeVal.reached (now next : TimeVal) : Bool :=
  decide (now.sec > next.sec) || (decide (now.sec = next.sec) && decide (now.usec ≥ next.usec))

/-- `VortexThreadPoolEvent`, src/vortex_thread_pool.c:86-93; `id` stands for its address. -/
structure TimedEvent where
  id : Nat
  delay : Int
  next : TimeVal
  deriving DecidableEq, Repr

/-- The events of the pool; `nextId` gives each event a different id (addresses of freed events may be
used again in the code: simplification). -/
structure Timers where
  events : List TimedEvent
  nextId : Nat

inductive TimerOp
  /-- `vortex_thread_pool_new_event` at instant `now`, src/vortex_thread_pool.c:969-1011 -/
  | install (now : TimeVal) (delay : Int)
  /-- `vortex_thread_pool_remove_event`, :1023-1065 -/
  | remove (id : Nat)
  /-- `__vortex_thread_pool_process_events` begun at instant `now`, :125-227; `finished` are the ids whose
  handler returns true (to be removed). The pass is one step: the flag `processing_events` keeps other
  passes out. Installs and removals by other threads in the middle are not modelled. -/
  | pass (now : TimeVal) (finished : List Nat)

inductive TimerEvent
  | installed (id : Nat) (now : TimeVal) (delay : Int)
  | ran (id : Nat) (now : TimeVal)
  deriving DecidableEq, Repr

/-- The loop of `__vortex_thread_pool_process_events`, :158-220. -/
def processEvents (now : TimeVal) (finished : List Nat) : List TimedEvent → List TimerEvent × List TimedEvent
  | [] => ([], [])
  | e :: es =>
    let r := processEvents now finished es
    if now.reached e.next then
      if finished.contains e.id then (.ran e.id now :: r.1, r.2)
      else (.ran e.id now :: r.1, { e with next := increaseStamp e.next e.delay } :: r.2)
    else (r.1, e :: r.2)

def Timers.step (t : Timers) : TimerOp → List TimerEvent × Timers
  | .install now delay =>
    -- `axl_list_add` with a comparison that always says "after" (:458-467): the order does not matter here
    ([.installed t.nextId now delay],
     ⟨t.events ++ [⟨t.nextId, delay, increaseStamp now delay⟩], t.nextId + 1⟩)
  | .remove id => ([], { t with events := t.events.filter (fun e => e.id != id) })
  | .pass now finished =>
    ((processEvents now finished t.events).1, { t with events := (processEvents now finished t.events).2 })

def Timers.run (t : Timers) : List TimerOp → List TimerEvent × Timers
  | [] => ([], t)
  | op :: ops => ((t.step op).1 ++ ((t.step op).2.run ops).1, ((t.step op).2.run ops).2)

end Verif.Model
