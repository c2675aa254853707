import Verif.Model.CInt
/-!
# Pull API (pull/vortex_pull.c)

The queue of pending events of one context, its event masks and the threads that pull. The check of the masks
and the insertion in the queue are one step. The queue is a `VortexAsyncQueue` (src/vortex_thread.c).
-/
namespace Verif.Model

/-- `struct _VortexEventMask`, pull/vortex_pull.c:87-94. -/
structure EventMask where
  id : Nat
  /-- an `int` -/
  mask : BitVec 32
  enabled : Bool
  deriving DecidableEq, Repr

/-- `VortexEventType`, pull/vortex_pull.h:79-199: the type number `k` is `1 << k`, `k < 8`. -/
def eventBit (k : Nat) : BitVec 32 := 1#32 <<< k

/-- `vortex_event_mask_add`, pull/vortex_pull.c:850-858. -/
def EventMask.add (m : EventMask) (events : BitVec 32) : EventMask := { m with mask := m.mask ||| events }

/-- `vortex_event_mask_remove`, pull/vortex_pull.c:873-881. -/
def EventMask.remove (m : EventMask) (events : BitVec 32) : EventMask := { m with mask := m.mask &&& ~~~events }

/-- `vortex_event_mask_is_set`, pull/vortex_pull.c:894-904. -/
def EventMask.isSet (m : EventMask) (event : BitVec 32) : Bool := m.enabled && decide (0 < (m.mask &&& event).toInt)

/-- A thread inside `vortex_pull_next_event`: when it started to wait, and the argument of
`vortex_async_queue_timedpop` (0: it waits for ever in `vortex_async_queue_pop`), in microseconds. -/
structure PullWait where
  since : Nat
  micros : Nat
  /-- `milliseconds_to_wait`, as the application gave it -/
  millis : Int
  deriving DecidableEq, Repr

structure Pull where
  masks : List EventMask
  /-- pending events: type and identity; the newest first -/
  data : List (Nat × Nat)
  sleeping : List PullWait
  woken : List PullWait
  /-- microseconds -/
  now : Nat
  deriving DecidableEq, Repr

def Pull.init : Pull := ⟨[], [], [], [], 0⟩

inductive PullEvent
  /-- `vortex_pull_next_event` returns this event -/
  | pulled (kind x : Nat)
  /-- it returns NULL; the time the application gave (milliseconds), and the time it took (microseconds) -/
  | gaveUp (millis : Int) (waited : Nat)
  /-- a channel start, deferred to the application -/
  | startDeferred (x : Nat)
  /-- a channel start accepted because its event is masked -/
  | startAccepted (x : Nat)
  /-- a channel close accepted because its event is masked -/
  | closeAccepted (x : Nat)
  deriving DecidableEq, Repr

inductive PullOp
  /-- an event of this type happens -/
  | happen (kind x : Nat)
  /-- `vortex_event_mask_new` and `vortex_pull_set_event_mask` -/
  | setMask (m : EventMask)
  /-- `vortex_event_mask_add`, `_remove` and `_enable` on the mask with this identifier -/
  | maskAdd (id : Nat) (events : BitVec 32)
  | maskRemove (id : Nat) (events : BitVec 32)
  | maskEnable (id : Nat) (b : Bool)
  /-- a thread calls `vortex_pull_next_event` -/
  | next (millis : Int)
  /-- the `i`-th sleeping thread wakes up: its time is over or, `spurious`, with no reason -/
  | wake (i : Nat) (spurious : Bool)
  /-- the `i`-th woken thread gets the mutex -/
  | resume (i : Nat)
  /-- time passes, microseconds -/
  | wait (n : Nat)
  deriving DecidableEq, Repr

/-- `vortex_pull_event_is_filtered`, pull/vortex_pull.c:158-189. -/
def Pull.isFiltered (p : Pull) (kind : Nat) : Bool := p.masks.any fun m => m.isSet (eventBit kind)

/-- `vortex_async_queue_push`, src/vortex_thread.c:1065-1085: one sleeping thread, the first, is woken. -/
def Pull.push (p : Pull) (e : Nat × Nat) : Pull :=
  let p : Pull := { p with data := e :: p.data }
  match p.sleeping with
  | [] => p
  | t :: l => { p with sleeping := l, woken := p.woken ++ [t] }

/-- `VORTEX_EVENT_CHANNEL_CLOSE` -/
def kindClose : Nat := 1
/-- `VORTEX_EVENT_CHANNEL_START` -/
def kindStart : Nat := 6

def updateMask (id : Nat) (f : EventMask → EventMask) (l : List EventMask) : List EventMask :=
  l.map fun m => if m.id = id then f m else m

def Pull.step (p : Pull) : PullOp → List PullEvent × Pull
  -- `vortex_pull_event_marshaller`, lines 192-247; `vortex_pull_close_notify`, 1030-1063;
  -- `vortex_pull_start_handler`, 1134-1191
  | .happen kind x =>
    if p.isFiltered kind then
      (if kind = kindClose then [.closeAccepted x] else if kind = kindStart then [.startAccepted x] else [], p)
    else (if kind = kindStart then [.startDeferred x] else [], p.push (kind, x))
  -- lines 938-986
  | .setMask m => ([], if p.masks.any (·.id == m.id) then p else { p with masks := p.masks ++ [m] })
  | .maskAdd id events => ([], { p with masks := updateMask id (·.add events) p.masks })
  | .maskRemove id events => ([], { p with masks := updateMask id (·.remove events) p.masks })
  | .maskEnable id b => ([], { p with masks := updateMask id (fun m => { m with enabled := b }) p.masks })
  -- lines 518-530; the milliseconds are given as microseconds
  | .next millis =>
    match p.data.getLast? with
    | some e => ([.pulled e.1 e.2], { p with data := p.data.dropLast })
    | none => ([], { p with sleeping := p.sleeping ++ [⟨p.now, if 0 < millis then millis.toNat else 0, millis⟩] })
  | .wake i spurious =>
    match p.sleeping[i]? with
    | none => ([], p)
    | some t =>
      if spurious || (0 < t.micros && t.since + t.micros ≤ p.now) then
        ([], { p with sleeping := p.sleeping.eraseIdx i, woken := p.woken ++ [t] })
      else ([], p)
  | .resume i =>
    match p.woken[i]? with
    | none => ([], p)
    | some t =>
      let p : Pull := { p with woken := p.woken.eraseIdx i }
      match p.data.getLast? with
      | some e => ([.pulled e.1 e.2], { p with data := p.data.dropLast })
      | none =>
        if 0 < t.micros then ([.gaveUp t.millis (p.now - t.since)], p)
        else ([], { p with sleeping := p.sleeping ++ [t] })
  | .wait n => ([], { p with now := p.now + n })

def Pull.run (p : Pull) : List PullOp → List PullEvent × Pull
  | [] => ([], p)
  | op :: ops =>
    let r := p.step op
    let q := r.2.run ops
    (r.1 ++ q.1, q.2)

end Verif.Model
