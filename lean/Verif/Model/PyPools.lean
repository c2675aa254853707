/-!
# Channel pools of the Python bindings

Models `py-vortex/src/py_vortex_channel_pool.c` 69-137 (handlers kept with the connection), 181-195 (collection), 235-283 (`next_ready`), 365-448 (the function that
creates channels), 459-514 (the pool is ready), 521-612 (`channel_pool_new`), 618-655 (objects for a pool that exists), `py_vortex_connection.c` 696-722 (`pool`) and
`src/vortex_channel_pool.c` 141-212, 223-290, 1252-1306.

Simplified: one connection; objects and pools are numbered in the order of creation; a handler that creates channels is a number and always creates one; the
references of the connection other than those of pool objects are one (`session`), dropped when the session has ended and the program has forgotten it; the
references kept for one pool (handlers and their data) are held and dropped together.
-/
namespace Verif.Model

/-- A `VortexChannelPool`: `create_channel_user_data`, which is a pointer to the Python object that made it, and the handler that the program gave. -/
structure PypPool where
  first : Nat
  handler : Option Nat
deriving DecidableEq, Repr

/-- A `PyVortexChannelPool`: the pool (`none`: NULL), the handler in its `data`, whether the object exists, whether a task of the library owns it. -/
structure PypObj where
  pool : Option Nat
  handler : Option Nat
  alive : Bool
  pending : Bool
deriving DecidableEq, Repr

/-- Pools, objects, references of pool objects to the connection, the others, calls of handlers (handler, data given to `next_ready`), pools whose references were dropped,
whether freed memory was used, whether references were dropped without the lock of the interpreter. -/
structure PypState where
  pools : List PypPool
  objs : List PypObj
  refs : Nat
  session : Bool
  calls : List (Nat × Option Nat)
  released : List Nat
  bad : Bool
  unlocked : Bool
deriving DecidableEq, Repr

/-- What the program and the library do. -/
inductive PypOp
  /-- `conn.channel_pool_new (profile, init, create_channel)` -/
  | make (handler : Option Nat) (init : Nat)
  /-- the same with `on_created`: a task makes the pool -/
  | start (handler : Option Nat)
  /-- the task of this object makes the pool and calls `on_created`; `kept`: the program keeps the object -/
  | made (o init : Nat) (kept : Bool)
  /-- `conn.pool (id)` -/
  | find (p : Nat)
  /-- the last Python reference to the object is gone -/
  | collect (o : Nat)
  /-- `o.next_ready (auto_inc, data)`; `ready`: a channel of the pool is ready -/
  | next (o : Nat) (ready auto : Bool) (x : Option Nat)
  /-- the session has ended; `locked`: the thread that drops the last reference has the lock of the interpreter -/
  | leave (locked : Bool)
deriving DecidableEq, Repr

/-- The connection is freed with its last reference; the data of the pools is released by `py_vortex_channel_pool_release_data`, 69-102, without taking the lock. -/
def pypFree (s : PypState) (locked : Bool) : PypState :=
  if s.refs = 0 ∧ s.session = false then
    { s with released := s.released ++ List.range s.pools.length, unlocked := s.unlocked || (!locked && decide (s.pools ≠ [])) }
  else s

/-- A channel is created, `src/vortex_channel_pool.c` 152-180: with a handler, `py_vortex_channel_pool_create_channel` reads the object that made the pool, 365-448. -/
def pypChannel (s : PypState) (p : PypPool) (x : Option Nat) : PypState :=
  match p.handler with
  | none => s
  | some _ =>
    match s.objs[p.first]? with
    | none => { s with bad := true }
    | some o =>
      if o.alive then
        match o.handler with
        | some h => { s with calls := s.calls ++ [(h, x)] }
        | none => s
      else { s with bad := true }

/-- The first channels of a pool, `src/vortex_channel_pool.c` 150-207. -/
def pypChannels (s : PypState) (p : PypPool) : Nat → PypState
  | 0 => s
  | n + 1 => pypChannels (pypChannel s p none) p n

/-- Collection, `py_vortex_channel_pool.c` 181-195; the lock of the interpreter is held. -/
def pypCollect (s : PypState) (o : Nat) (x : PypObj) : PypState :=
  match x.pool with
  | none => { s with objs := s.objs.set o { x with alive := false } }
  | some _ =>
    if s.refs = 0 then { s with bad := true }
    else pypFree { s with objs := s.objs.set o { x with alive := false }, refs := s.refs - 1 } true

/-- One step. -/
def pypStep (s : PypState) : PypOp → PypState
  | .make h n =>
    if s.session then
      let s := { s with objs := s.objs ++ [⟨some s.pools.length, h, true, false⟩], refs := s.refs + 1, pools := s.pools ++ [⟨s.objs.length, h⟩] }
      pypChannels s ⟨s.objs.length - 1, h⟩ n
    else s
  | .start h => if s.session then { s with objs := s.objs ++ [⟨none, h, true, true⟩], refs := s.refs + 1 } else s
  | .made o n kept =>
    match s.objs[o]? with
    | none => s
    | some x =>
      if x.pending then
        let s := pypChannels s ⟨o, x.handler⟩ n
        let y := { x with pool := some s.pools.length, pending := false }
        let s := { s with pools := s.pools ++ [⟨o, x.handler⟩], objs := s.objs.set o y }
        if kept then s else pypCollect s o y
      else s
  | .find p =>
    match s.pools[p]? with
    | none => s
    | some q => if s.session then { s with objs := s.objs ++ [⟨some p, q.handler, true, false⟩], refs := s.refs + 1 } else s
  | .collect o =>
    match s.objs[o]? with
    | none => s
    | some x => if x.alive ∧ x.pending = false then pypCollect s o x else s
  | .next o ready auto x =>
    match s.objs[o]? with
    | none => s
    | some y =>
      match y.pool with
      | none => s
      | some p =>
        match s.pools[p]? with
        | none => s
        | some q => if y.alive ∧ ready = false ∧ auto = true then pypChannel s q x else s
  | .leave locked => if s.session then pypFree { s with session := false } locked else s

/-- A run. -/
def pypRun (ops : List PypOp) : PypState := ops.foldl pypStep ⟨[], [], 0, true, [], [], false, false⟩

end Verif.Model
