/-!
References to the channels of channel pools, src/vortex_channel_pool.c, with `vortex_channel_unref2` and `vortex_channel_free`,
src/vortex_channel.c:5051-5088, 7921-7939.

Calls are made one after the other, with pools and channels the caller may use: a call for a pool that was closed or a channel without
references does nothing here. Which channel is given to whom is in Model/ChannelPool.lean; here are only the references. Not modelled: the
connection being released (it closes the pools first, src/vortex_connection.c:3693), refusals of the peer to close a channel when a pool is
closed.
-/
namespace Verif.Model

structure PoolChan where
  /-- `channel_num` -/
  num : Nat
  /-- `ref_count` -/
  refs : Int
  /-- `channel->pool` -/
  pool : Option Nat
  /-- in the table of the connection, which has a reference -/
  inTable : Bool
  /-- references taken by the application, `vortex_channel_ref` -/
  user : Nat
  deriving DecidableEq, Repr

structure PoolRec where
  alive : Bool
  /-- `pool->channels` -/
  list : List Nat
  deriving DecidableEq, Repr

structure PoolRefs where
  chan : Nat → PoolChan
  /-- channels created -/
  chans : Nat
  pool : Nat → PoolRec
  /-- pools created -/
  pools : Nat

def PoolRefs.init : PoolRefs := ⟨fun _ => ⟨0, 0, none, false, 0⟩, 0, fun _ => ⟨false, []⟩, 0⟩

def PoolRefs.setC (s : PoolRefs) (c : Nat) (x : PoolChan) : PoolRefs := { s with chan := fun k => if k = c then x else s.chan k }
def PoolRefs.setP (s : PoolRefs) (p : Nat) (x : PoolRec) : PoolRefs := { s with pool := fun k => if k = p then x else s.pool k }

/-- The first channel in the list with the number of `c`: `__vortex_channel_pool_channel_exists`, src/vortex_channel_pool.c:943-978, and
`vortex_channel_are_equal`, src/vortex_channel.c:4546-4559. -/
def PoolRefs.same (s : PoolRefs) (p c : Nat) : Option Nat := (s.pool p).list.find? (fun d => (s.chan d).num == (s.chan c).num)

/-- What may happen instead of a result. -/
inductive PoolFault
  /-- the pool is used after it was released -/
  | released
  /-- the thread waits for a mutex it holds itself -/
  | blocked
  deriving DecidableEq, Repr

/-- `vortex_channel_free`, src/vortex_channel.c:7933-7939, for a channel whose references are used up: if it has a pool, it is taken out there,
`vortex_channel_pool_deattach`, src/vortex_channel_pool.c:1036-1103. `locked`: the thread holds the mutex of the channel pools, which is not
recursive (src/vortex_connection.c:334). The reference given back there (:1083) makes the count -1, which does nothing. -/
def PoolRefs.free (s : PoolRefs) (locked : Bool) (c : Nat) : Except PoolFault PoolRefs :=
  match (s.chan c).pool with
  | none => .ok s
  | some p =>
    if (s.pool p).alive = false then .error .released
    else if locked then .error .blocked
    else match s.same p c with
      | none => .ok s
      | some d => .ok ((s.setC c { s.chan c with refs := -1 }).setP p { s.pool p with list := (s.pool p).list.erase d })

/-- `vortex_channel_unref2`, src/vortex_channel.c:5051-5088. -/
def PoolRefs.unref (s : PoolRefs) (locked : Bool) (c : Nat) : Except PoolFault PoolRefs :=
  let s' := s.setC c { s.chan c with refs := (s.chan c).refs - 1 }
  if (s'.chan c).refs = 0 then s'.free locked c else .ok s'

/-- `vortex_channel_close` with a peer that agrees: the channel leaves the table, which gives back its reference,
src/vortex_connection.c:4621-4655. -/
def PoolRefs.leave (s : PoolRefs) (locked : Bool) (c : Nat) : Except PoolFault PoolRefs :=
  if (s.chan c).inTable then (s.setC c { s.chan c with inTable := false }).unref locked c else .ok s

/-- A channel that is ready is closed by its pool, src/vortex_channel_pool.c:718-737; the others are left alone when the pool is closed,
:825-840. The list is changed by the caller. -/
def PoolRefs.letGo (s : PoolRefs) (ready : Bool) (c : Nat) : Except PoolFault PoolRefs :=
  let s := s.setC c { s.chan c with pool := none }
  if ready then
    match s.leave true c with
    | .error e => .error e
    | .ok s => s.unref true c
  else s.unref true c

/-- The channels of a pool that is closed, one after the other. -/
def PoolRefs.letGoAll (ready : Bool) : PoolRefs → List Nat → Except PoolFault PoolRefs
  | s, [] => .ok s
  | s, c :: rest =>
    match s.letGo ready c with
    | .error e => .error e
    | .ok s => s.letGoAll ready rest

inductive PoolRefsOp
  /-- `vortex_channel_pool_new` without its channels -/
  | newPool
  /-- the application creates a channel with this number -/
  | make (num : Nat)
  /-- the pool creates a channel, `__vortex_channel_pool_add_channels`, :142-212 -/
  | add (p num : Nat)
  | attach (p c : Nat)
  | deattach (p c : Nat)
  /-- `vortex_channel_pool_remove` for one channel, which is ready -/
  | remove (p c : Nat)
  /-- `vortex_channel_pool_close`; `ready`: the channels that are ready -/
  | closePool (p : Nat) (ready : List Nat)
  /-- the channel is closed, by either side -/
  | close (c : Nat)
  /-- `vortex_channel_ref`, `vortex_channel_unref` by the application -/
  | ref (c : Nat)
  | unref (c : Nat)
  deriving DecidableEq, Repr

/-- The number is not in use in the connection. -/
def PoolRefs.unused (s : PoolRefs) (num : Nat) : Bool :=
  (List.range s.chans).all (fun c => !((s.chan c).inTable && (s.chan c).num == num))

def PoolRefs.step (s : PoolRefs) : PoolRefsOp → Except PoolFault PoolRefs
  | .newPool => .ok { s.setP s.pools ⟨true, []⟩ with pools := s.pools + 1 }
  | .make num =>
    if s.unused num then .ok { s.setC s.chans ⟨num, 1, none, true, 0⟩ with chans := s.chans + 1 } else .ok s
  | .add p num =>
    if s.unused num ∧ (s.pool p).alive then
      .ok { (s.setC s.chans ⟨num, 2, some p, true, 0⟩).setP p { s.pool p with list := (s.pool p).list ++ [s.chans] } with chans := s.chans + 1 }
    else .ok s
  -- :987-1021
  | .attach p c =>
    if (s.pool p).alive ∧ 0 < (s.chan c).refs ∧ s.same p c = none then
      .ok ((s.setC c { s.chan c with refs := (s.chan c).refs + 1 }).setP p { s.pool p with list := (s.pool p).list ++ [c] })
    else .ok s
  -- :1036-1103
  | .deattach p c =>
    if (s.pool p).alive ∧ 0 < (s.chan c).refs then
      match s.same p c with
      | none => .ok s
      | some d =>
        match s.unref true c with
        | .error e => .error e
        | .ok s => .ok (s.setP p { s.pool p with list := (s.pool p).list.erase d })
    else .ok s
  -- :687-779
  | .remove p c =>
    if (s.pool p).alive ∧ c ∈ (s.pool p).list then
      (s.setP p { s.pool p with list := (s.pool p).list.erase c }).letGo true c
    else .ok s
  -- :791-859
  | .closePool p ready =>
    if (s.pool p).alive then
      match PoolRefs.letGoAll true (s.setP p { s.pool p with list := [] }) ((s.pool p).list.filter (· ∈ ready)) with
      | .error e => .error e
      | .ok s' =>
        match s'.letGoAll false ((s.pool p).list.filter (· ∉ ready)) with
        | .error e => .error e
        | .ok s'' => .ok (s''.setP p ⟨false, []⟩)
    else .ok s
  | .close c => s.leave false c
  | .ref c =>
    if 0 < (s.chan c).refs then .ok (s.setC c { s.chan c with refs := (s.chan c).refs + 1, user := (s.chan c).user + 1 }) else .ok s
  | .unref c => if 0 < (s.chan c).user then (s.setC c { s.chan c with user := (s.chan c).user - 1 }).unref false c else .ok s

def PoolRefs.run : PoolRefs → List PoolRefsOp → Except PoolFault PoolRefs
  | s, [] => .ok s
  | s, op :: rest => match s.step op with | .error e => .error e | .ok s' => s'.run rest

end Verif.Model
