/-!
# Channel pools of XML-RPC channels

`vortex_xml_rpc_create_channel_pool` (xml-rpc/vortex_xml_rpc.c:967-1005), `__vortex_xml_rpc_create_channel` (880-900) and
`vortex_xml_rpc_channel_pool_get_next` (1041-1066), with `__vortex_channel_pool_new` (src/vortex_channel_pool.c:220-287) and the table of the
pools of a connection (src/vortex_connection.c:6301-6356), for any number of calls in any number of threads on one connection.

Simplified: names are numbers; pool ids do not overflow; a boot gives a channel or not, which makes no difference here. Not modelled: the channels
inside a pool and when they are ready (`ChannelPool.lean`), the connection being freed, failing allocations.
-/
namespace Verif.Model

/-- How far the creation of a pool is. -/
inductive PcPhase
  /-- the call was made; with a handler its task is queued -/
  | queued
  /-- `next_channel_pool_id` was read, to be incremented (src/vortex_connection.c:6306); no mutex is held -/
  | reading (v : Nat)
  /-- the pool has its id -/
  | named (id : Nat)
  /-- its first channel was booted -/
  | booted (id : Nat)
  /-- it is in the table of the connection -/
  | installed (id : Nat)
  /-- it was closed and freed -/
  | gone
  deriving DecidableEq, Repr

/-- A call of `vortex_xml_rpc_create_channel_pool`, with its `XmlRpcCreateChannelData` and its pool. -/
structure PcCall where
  /-- `on_pool_created` is given -/
  handler : Bool
  server : Nat
  resource : Nat
  phase : PcPhase
  /-- the number in the key the data is kept under, once it is -/
  key : Option Int
  /-- the data was released -/
  freed : Bool
  /-- the channels booted for the pool: the names used; `none`: read from released memory -/
  boots : List (Option (Nat × Nat))
  /-- the pool was closed by the library because another one was installed with its id -/
  replaced : Bool
  /-- the call read the id of its pool after that was freed -/
  late : Bool
  deriving DecidableEq, Repr

/-- The calls so far, and `next_channel_pool_id`. -/
structure PcState where
  calls : List PcCall
  next : Nat
  deriving DecidableEq, Repr

/-- A new connection (src/vortex_connection.c:2759). -/
def PcState.init : PcState := ⟨[], 0⟩

/-- `__vortex_xml_rpc_create_channel` (xml-rpc/vortex_xml_rpc.c:880-900) for the pool of the call: the names are read from the data. -/
def PcCall.boot (c : PcCall) : PcCall := { c with boots := (if c.freed then none else some (c.server, c.resource)) :: c.boots }

inductive PcOp
  /-- the application calls; with a handler the rest is done by a task -/
  | create (handler : Bool) (server resource : Nat)
  /-- steps of `__vortex_channel_pool_new` for call `k` -/
  | readId (k : Nat)
  | writeId (k : Nat)
  | first (k : Nat)
  | install (k : Nat)
  /-- the call keeps the data with the connection and returns -/
  | keep (k : Nat)
  /-- `vortex_xml_rpc_channel_pool_get_next` with `auto_inc`, no channel of the pool is ready -/
  | getNext (id : Int)
  /-- `vortex_channel_pool_close` -/
  | close (k : Nat)
  /-- `vortex_connection_reconnect` (src/vortex_connection.c:2740-2760): the pools are closed, the data of the connection stays -/
  | reconnect
  deriving DecidableEq, Repr

/-- The pool is in the table with that id. -/
def PcCall.hasId (c : PcCall) (id : Nat) : Bool := decide (c.phase = .installed id)

/-- The table closes the pool it had with that id (`vortex_hash_replace`, src/vortex_connection.c:6327-6329). -/
def PcCall.replace (c : PcCall) (id : Nat) : PcCall := if c.hasId id then { c with phase := .gone, replaced := true } else c

/-- The data kept under the key is released when other data is kept under it (`vortex_hash_replace_full`, src/vortex_hash.c:270-300). -/
def PcCall.release (c : PcCall) (key : Int) : PcCall := if c.key = some key then { c with key := none, freed := true } else c

/-- `vortex_channel_pool_get_id` (src/vortex_channel_pool.c:1390-1396) of what `vortex_channel_pool_new_full` returned: with a handler NULL. `none`: the call
has no pool to return yet, or it was freed. -/
def PcCall.resultId (c : PcCall) : Option Int :=
  if c.handler then some (-1)
  else
    match c.phase with
    | .installed id => some id
    | _ => none

def PcState.step (s : PcState) : PcOp → PcState
  | .create h sv r => { s with calls := s.calls ++ [⟨h, sv, r, .queued, none, false, [], false, false⟩] }
  | .readId k =>
    match s.calls[k]? with
    | some c => if c.phase = .queued then { s with calls := s.calls.set k { c with phase := .reading s.next } } else s
    | none => s
  | .writeId k =>
    match s.calls[k]? with
    | some c =>
      match c.phase with
      | .reading v => ⟨s.calls.set k { c with phase := .named (v + 1) }, v + 1⟩
      | _ => s
    | none => s
  | .first k =>
    match s.calls[k]? with
    | some c =>
      match c.phase with
      | .named id => { s with calls := s.calls.set k { c.boot with phase := .booted id } }
      | _ => s
    | none => s
  | .install k =>
    match s.calls[k]? with
    | some c =>
      match c.phase with
      | .booted id => { s with calls := (s.calls.map (fun d => d.replace id)).set k { c with phase := .installed id } }
      | _ => s
    | none => s
  | .keep k =>
    match s.calls[k]? with
    | some c =>
      if c.key ≠ none ∨ c.freed = true then s
      else
        match c.resultId with
        | some key => { s with calls := (s.calls.map (fun d => d.release key)).set k { c with key := some key } }
        | none => if c.phase = .gone then { s with calls := s.calls.set k { c with late := true } } else s
    | none => s
  | .getNext id =>
    match id with
    | .ofNat (n + 1) => { s with calls := s.calls.map (fun c => if c.hasId (n + 1) then c.boot else c) }
    | _ => s
  | .close k =>
    match s.calls[k]? with
    | some c =>
      match c.phase with
      | .installed _ => { s with calls := s.calls.set k { c with phase := .gone } }
      | _ => s
    | none => s
  | .reconnect => ⟨s.calls.map (fun c => match c.phase with | .installed _ => { c with phase := .gone } | _ => c), 0⟩

/-- The state after a history. -/
def PcState.run (s : PcState) : List PcOp → PcState
  | [] => s
  | o :: os => (s.step o).run os

end Verif.Model
