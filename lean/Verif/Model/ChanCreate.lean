/-!
Creating a channel, the side that asks: `vortex_channel_new_full`, src/vortex_channel.c:1333-1391, `__vortex_channel_new`, :840-1096, and
the check of the answer with its cache, `__vortex_channel_validate_start_reply`, :659-815.

The side that answers is in Model/Start.lean, the wait for the reply in Model/WaitReply.lean, automatic numbers in
Model/ChannelNumbers.lean. Not modelled: the XML parser of the axl library (it is a parameter), the server name, failures of
allocation, and the memory for the request that is not released when the creation fails early (:864-895 leave without
`vortex_channel_data_free`).
-/
namespace Verif.Model

/-! ## The check of the answer -/

inductive StartKind
  | rpy
  | err
  /-- another frame type -/
  | other
  deriving DecidableEq, Repr

/-- The frame received as the answer to a start message. -/
structure StartReply where
  kind : StartKind
  payload : List UInt8
  deriving DecidableEq, Repr

/-- What `axl_doc_parse` finds in the payload: the root element with what is looked at. -/
inductive StartDoc
  /-- `<profile>`, with its attribute `uri` and its content -/
  | profile (uri : Option String) (content : Option String)
  | error (code : Int) (text : String)
  | other
  deriving DecidableEq, Repr

/-- The axl hash compares payloads as strings that end with NUL. -/
def startKey (payload : List UInt8) : List UInt8 := payload.takeWhile (· ≠ 0)

/-- `ctx->channel_start_reply_cache`: text of an answer, and its `profile_content`. -/
abbrev StartCache := List (List UInt8 × Option String)

/-- What `__vortex_channel_validate_start_reply` does: its result, the piggyback set on the channel, and the error put on the connection. -/
structure StartCheck where
  result : Bool
  piggyback : Option String
  error : Option (Int × String)
  deriving DecidableEq, Repr

/-- An empty `profile_content` is not set as piggyback, :762. -/
def startPiggyback (content : Option String) : Option String := content.filter (· ≠ "")

/-- `__vortex_channel_validate_start_reply`, :659-815, by one thread. The removal of the channel is in `ChanCreate.step`. -/
def validateStart (parse : List UInt8 → Option StartDoc) (cache : StartCache) (requested : String) (r : StartReply) :
    StartCheck × StartCache :=
  match cache.lookup (startKey r.payload) with
  -- :685-696
  | some content => (⟨true, startPiggyback content, none⟩, cache)
  | none =>
    match parse r.payload with
    -- :704-714
    | none => (⟨false, none, none⟩, cache)
    | some d =>
      -- :717-739
      if r.kind ≠ .rpy then
        (⟨false, none, match d with | .error c t => some (c, t) | _ => none⟩, cache)
      else match d with
        -- :742-807
        | .profile uri content =>
          if uri = some requested then
            (⟨true, startPiggyback content, none⟩, (startKey r.payload, content) :: cache)
          else (⟨false, none, none⟩, (startKey r.payload, none) :: cache)
        | _ => (⟨false, none, none⟩, cache)

/-- Answers checked one after the other in a context, each with the profile that was asked for. -/
def validateAll (parse : List UInt8 → Option StartDoc) : StartCache → List (String × StartReply) → List StartCheck × StartCache
  | cache, [] => ([], cache)
  | cache, (q, r) :: rest =>
    let c := validateStart parse cache q r
    let l := validateAll parse c.2 rest
    (c.1 :: l.1, l.2)

/-! ## The cache, used by several threads

One text; entries are numbered as they are created. -/

inductive StartCachePc
  | out
  /-- found nothing, :680-682; parses the document -/
  | missed
  /-- has the pointer to this entry, the mutex is free again -/
  | found (entry : Nat)
  deriving DecidableEq, Repr

structure StartCacheUse where
  entry : Option Nat
  created : Nat
  pc : Nat → StartCachePc

def StartCacheUse.init : StartCacheUse := ⟨none, 0, fun _ => .out⟩

def StartCacheUse.set (s : StartCacheUse) (i : Nat) (p : StartCachePc) : StartCacheUse :=
  { s with pc := fun k => if k = i then p else s.pc k }

/-- A step of thread `i`; `none`: memory is used after it was released. -/
def StartCacheUse.step (s : StartCacheUse) (i : Nat) : Option StartCacheUse :=
  match s.pc i with
  -- `axl_hash_get`, :680-682
  | .out => some (s.set i (match s.entry with | none => .missed | some e => .found e))
  -- `axl_hash_insert_full`, :780-804: the entry that was there is released with its frame
  | .missed => some { s.set i .out with entry := some s.created, created := s.created + 1 }
  -- `cache->profile_content`, :689, 762-767
  | .found e => if s.entry = some e then some (s.set i .out) else none

def StartCacheUse.run : StartCacheUse → List Nat → Option StartCacheUse
  | s, [] => some s
  | s, i :: rest => match s.step i with | none => none | some s' => s'.run rest

/-! ## Threads that create channels on one connection -/

inductive ChanCreatePc
  /-- the reference to the connection is taken, `vortex_connection_channel_exists` comes next, :874-880 -/
  | begun
  /-- the number is not in use; `vortex_connection_add_channel` comes next, :932 -/
  | free
  /-- in the table; the start message is sent, the reply is awaited, :966-996 -/
  | asked
  /-- refused: removed once in `__vortex_channel_validate_start_reply`; to be removed again, :1031 -/
  | refused
  /-- to be notified, :1052-1095 -/
  | ended (created : Bool)
  | returned (created : Bool)
  deriving DecidableEq, Repr

structure CreateCall where
  num : Nat
  /-- `on_channel_created` is defined -/
  threaded : Bool
  pc : ChanCreatePc
  /-- results given to the caller: each is a call of `on_channel_created`, or the return of a call without it -/
  told : List Bool
  deriving DecidableEq, Repr

structure ChanCreate where
  /-- `vortex_connection_is_ok` -/
  ok : Bool
  /-- `connection->channels` without channel 0: number, and the call that created it -/
  table : List (Nat × Nat)
  /-- references to the connection taken for creations, "channel-create" -/
  refs : Nat
  calls : List CreateCall
  /-- calls whose channel was closed, by either side -/
  closed : List Nat
  deriving DecidableEq, Repr

def ChanCreate.init : ChanCreate := ⟨true, [], 0, [], []⟩

inductive ChanCreateAct
  /-- `vortex_channel_new_full` -/
  | call (num : Nat) (threaded : Bool)
  /-- `vortex_connection_channel_exists`, `vortex_connection_add_channel`, or the end, of call `i` -/
  | step (i : Nat)
  /-- the start message could not be sent, or no reply came, :966-990, 1003-1017 -/
  | lost (i : Nat)
  /-- the reply came, and was found good or not, :1021 -/
  | reply (i : Nat) (good : Bool)
  /-- the channel created by call `i` is closed -/
  | close (i : Nat)
  | fail
  deriving DecidableEq, Repr

/-- `vortex_connection_remove_channel`, src/vortex_connection.c:4604-4655: what is in the table under the *number*. -/
def ChanCreate.remove (s : ChanCreate) (num : Nat) : ChanCreate :=
  { s with table := s.table.filter (fun e => e.1 != num) }

def ChanCreate.put (s : ChanCreate) (i : Nat) (c : CreateCall) : ChanCreate := { s with calls := s.calls.set i c }

def ChanCreate.step (s : ChanCreate) : ChanCreateAct → ChanCreate
  | .call num threaded =>
    -- :1348-1350: back with NULL, `on_channel_created` is not called
    if s.ok = false then
      { s with calls := s.calls ++ [⟨num, threaded, .returned false, if threaded then [] else [false]⟩] }
    else { s with refs := s.refs + 1, calls := s.calls ++ [⟨num, threaded, .begun, []⟩] }
  | .step i =>
    match s.calls[i]? with
    | none => s
    | some c =>
      match c.pc with
      -- :874-880
      | .begun => if s.table.any (fun e => e.1 == c.num) then s.put i { c with pc := .ended false } else s.put i { c with pc := .free }
      -- :932-938, src/vortex_connection.c:4550-4594
      | .free =>
        if s.table.any (fun e => e.1 == c.num) then s.put i { c with pc := .ended false }
        else { s.put i { c with pc := .asked } with table := s.table ++ [(c.num, i)] }
      -- :1027-1036
      | .refused => (s.remove c.num).put i { c with pc := .ended false }
      -- :1057-1095
      | .ended b => { s.put i { c with pc := .returned b, told := c.told ++ [b] } with refs := s.refs - 1 }
      | _ => s
  | .lost i =>
    match s.calls[i]? with
    | none => s
    | some c => if c.pc = .asked then (s.remove c.num).put i { c with pc := .ended false } else s
  | .reply i good =>
    match s.calls[i]? with
    | none => s
    | some c =>
      if c.pc = .asked then
        if good then s.put i { c with pc := .ended true }
        -- :710, 736, 748, 812
        else (s.remove c.num).put i { c with pc := .refused }
      else s
  | .close i =>
    match s.calls[i]? with
    | none => s
    | some c =>
      if (c.pc = .ended true ∨ c.pc = .returned true) ∧ i ∉ s.closed then { s.remove c.num with closed := i :: s.closed } else s
  | .fail => { s with ok := false }

def ChanCreate.run (s : ChanCreate) (acts : List ChanCreateAct) : ChanCreate := acts.foldl ChanCreate.step s

end Verif.Model
