/-!
# The frame received handler of a Python channel

Models `py-vortex/src/py_vortex_channel.c` 74-98 (where handler and data are kept), 100-118, 183-257 (the function called by the
library), 273-298 and 390-408 (`set_frame_received`), with `src/vortex_channel.c` 6382-6540 and 6563-6659 (a frame
is given to a thread of the pool, which calls the handler of the channel) and 4883-4904 (data of a channel).

Simplified: one channel, connected and not serialized; replies for which a thread waits are left out; Python objects are
numbers, `None` given as data is `none`; what is done while the lock of the interpreter is held is one step, the destructors of the
objects released do nothing; a handler released while it runs ends as the others; the first frame of a channel is the first that arrives.
-/
namespace Verif.Model

/-- What the program, the library and the threads do. -/
inductive PyfOp
  /-- `ch.set_frame_received (handler, data)` with something that can be called -/
  | set (h : Nat) (d : Option Nat)
  /-- `ch.set_frame_received (None)`, or anything that cannot be called: an exception, 286-287 -/
  | refused
  /-- `ch.set_frame_received ()`, 276-284 -/
  | clear
  /-- the reader has a frame for the channel, `src/vortex_channel.c` 6623-6656 -/
  | arrive (f : Nat)
  /-- the `i`-th waiting task starts and looks at the handler of the channel, `src/vortex_channel.c` 6459-6486 -/
  | task (i : Nat)
  /-- the `i`-th thread waiting for the lock of the interpreter gets it, `py_vortex_channel.c` 204 -/
  | enter (i : Nat)
  /-- the `i`-th call that runs ends -/
  | finish (i : Nat)
  /-- the last reference to the channel is gone; tasks have one -/
  | destroy
deriving DecidableEq, Repr

/-- The state: `channel->received`, the data `py:vo:ch:fr` and `py:vo:ch:frd` of the channel, the references to handlers and data that are held for it,
the tasks that wait, the threads that wait for the lock, the calls that run (frame, data), the calls made (frame, handler, data), the frames dropped,
whether the channel is gone and whether the process is. -/
structure PyfState where
  received : Bool
  fr : Option Nat
  frd : Option (Option Nat)
  hrefs : Nat → Nat
  drefs : Nat → Nat
  queued : List Nat
  entered : List Nat
  running : List (Nat × Option Nat)
  calls : List (Nat × Nat × Option Nat)
  dropped : List Nat
  gone : Bool
  bad : Bool

/-- A channel without handler. -/
def pyfInit : PyfState := ⟨false, none, none, fun _ => 0, fun _ => 0, [], [], [], [], [], false, false⟩

/-- `Py_INCREF`. -/
def pyfUp (r : Nat → Nat) (x : Nat) : Nat → Nat := fun y => if y = x then r y + 1 else r y

/-- `Py_DECREF`. -/
def pyfDown (r : Nat → Nat) (x : Nat) : Nat → Nat := fun y => if y = x then r y - 1 else r y

/-- The handler stored is released: `py_vortex_decref`, `py-vortex/src/py_vortex.c` 252-267. -/
def pyfDropHandler (s : PyfState) : PyfState :=
  match s.fr with
  | none => s
  | some h => if s.hrefs h = 0 then { s with bad := true } else { s with hrefs := pyfDown s.hrefs h, fr := none }

/-- The same for data; `None` was stored without a function to release it, `py_vortex_channel.c` 87-88. -/
def pyfDropData (s : PyfState) : PyfState :=
  match s.frd with
  | some (some d) => if s.drefs d = 0 then { s with bad := true } else { s with drefs := pyfDown s.drefs d, frd := none }
  | _ => { s with frd := none }

/-- `py_vortex_channel_set_frame_received_internal`, `py_vortex_channel.c` 74-98; the new value is stored before the old one is released,
`src/vortex_hash.c` 270-303. -/
def pyfSet (s : PyfState) (h : Nat) (d : Option Nat) : PyfState :=
  let s := { pyfDropHandler { s with hrefs := pyfUp s.hrefs h } with fr := some h }
  let s := match d with
    | none => { pyfDropData s with frd := some none }
    | some x => { pyfDropData { s with drefs := pyfUp s.drefs x } with frd := some (some x) }
  { s with received := true }

/-- `py_vortex_channel_received`, `py_vortex_channel.c` 183-257, up to the call: the reference for the tuple is taken from the data, NULL or not (232). -/
def pyfEnter (s : PyfState) (i f : Nat) : PyfState :=
  match s.fr, s.frd with
  | some h, some d =>
    { s with calls := s.calls ++ [(f, h, d)], running := s.running ++ [(f, d)], entered := s.entered.eraseIdx i,
             drefs := match d with | some x => pyfUp s.drefs x | none => s.drefs }
  | _, _ => { s with bad := true }

/-- The end of it: the tuple is released, 251-252. -/
def pyfFinish (s : PyfState) (i : Nat) (d : Option Nat) : PyfState :=
  let s := { s with running := s.running.eraseIdx i }
  match d with
  | none => s
  | some x => if s.drefs x = 0 then { s with bad := true } else { s with drefs := pyfDown s.drefs x }

/-- One step of a process that has not crashed and a channel that exists. -/
def pyfAct (s : PyfState) : PyfOp → PyfState
  | .set h d => pyfSet s h d
  | .refused => s
  | .clear => pyfDropData (pyfDropHandler { s with received := false })
  | .arrive f => if s.received then { s with queued := s.queued ++ [f] } else s
  | .task i =>
    match s.queued[i]? with
    | none => s
    | some f =>
      if s.received then { s with queued := s.queued.eraseIdx i, entered := s.entered ++ [f] }
      else { s with queued := s.queued.eraseIdx i, dropped := s.dropped ++ [f] }
  | .enter i =>
    match s.entered[i]? with
    | none => s
    | some f => pyfEnter s i f
  | .finish i =>
    match s.running[i]? with
    | none => s
    | some (_, d) => pyfFinish s i d
  | .destroy =>
    if s.queued = [] ∧ s.entered = [] ∧ s.running = [] then { pyfDropData (pyfDropHandler s) with gone := true } else s

/-- One step. -/
def pyfStep (s : PyfState) (op : PyfOp) : PyfState := if s.bad ∨ s.gone then s else pyfAct s op

/-- A run. -/
def pyfRun (ops : List PyfOp) : PyfState := ops.foldl pyfStep pyfInit

end Verif.Model
