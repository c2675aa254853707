/-!
# Channel start requests (src/vortex_channel.c, src/vortex_connection.c, src/vortex_profiles.c)

The listener's side of channel 0: start messages are handled by threads of the pool, several at a time; the
application registers profiles, installs masks and may answer later (`vortex_channel_defer_start`,
`vortex_channel_notify_start`). Each step is what a thread does between two calls of application code.
Requests are numbered in the order received, channel objects in the order created. The connection is ok, so
sending a reply on channel 0 succeeds (its order and delivery are the subject of C12). A request that is not
well formed XML is refused before it gets here (src/vortex_channel.c:7244-7251), one without a number crashes
the process (C96), and one without a profile is refused (:7119; not an action here). Only the first `<profile>` of a request is looked at (lines 6890-6893), as in the code.
-/
namespace Verif.Model

/-- A channel object created for a start request. -/
structure StChan where
  id : Nat
  /-- `channel_num` -/
  num : Int
  /-- the request that asked for it -/
  req : Nat
  /-- `is_opened` -/
  opened : Bool
  deriving DecidableEq, Repr

inductive StPhase
  /-- in `vortex_connection_is_profile_filtered`; this is the next mask -/
  | masks (next : Nat)
  /-- the start handler is running for this channel object -/
  | handler (chan : Nat)
  deriving DecidableEq, Repr

/-- A request under way in `__vortex_channel_0_frame_received_start_msg`. -/
structure StReq where
  req : Nat
  num : Int
  uri : String
  phase : StPhase
  deriving DecidableEq, Repr

structure Starts where
  /-- `ctx->registered_profiles`; the start handler is never NULL (src/vortex_profiles.c:337, 672) -/
  profiles : List String
  /-- length of `connection->profile_masks` -/
  masks : Nat
  /-- `connection->channels`, without channel 0 -/
  table : List StChan
  /-- requests received -/
  received : Nat
  /-- channel objects created -/
  created : Nat
  running : List StReq
  /-- channel objects with `_vo:ch:defer` set -/
  deferred : List Nat
  /-- channels whose handler returned after deferring the answer, not answered yet, with their request -/
  waiting : List (Nat × Nat)
  deriving DecidableEq, Repr

def Starts.init : Starts := ⟨[], 0, [], 0, 0, [], [], []⟩

inductive StEvent
  | registered (uri : String)
  | unregistered (uri : String)
  /-- a mask was installed -/
  | masked
  /-- start request number `req` for this channel number and profile -/
  | received (req : Nat) (num : Int) (uri : String)
  /-- mask number `mask` was asked about the request, and filters it or not -/
  | consulted (req : Nat) (mask : Nat) (filters : Bool)
  /-- the start handler of the profile was called -/
  | offered (req : Nat) (uri : String)
  /-- positive (RPY) or negative (ERR) answer sent to the request -/
  | answered (req : Nat) (positive : Bool)
  /-- filtered with `VORTEX_CONNECTION_SKIP_HANDLING`: no answer -/
  | skipped (req : Nat)
  /-- the channel created for the request was removed after having been accepted -/
  | closed (req : Nat)
  /-- a channel object is used after the connection dropped it -/
  | released (chan : Nat)
  deriving DecidableEq, Repr

inductive StOp
  | register (uri : String)
  | unregister (uri : String)
  | setMask
  /-- a start message -/
  | start (num : Int) (uri : String)
  /-- the `i`-th running request asks its next mask, which answers `filters`, or goes on when there is none -/
  | proceed (i : Nat) (filters : Bool) (skip : Bool)
  /-- `vortex_channel_defer_start` -/
  | defer (chan : Nat)
  /-- the start handler of the `i`-th running request returns -/
  | handlerReturns (i : Nat) (status : Bool)
  /-- `vortex_channel_notify_start` -/
  | notify (chan : Nat) (action : Bool)
  /-- the channel is closed by either side -/
  | close (chan : Nat)
  deriving DecidableEq, Repr

/-- `vortex_connection_channel_exists`, src/vortex_connection.c:4089-4104, connection ok. -/
def Starts.exists (s : Starts) (num : Int) : Bool :=
  if num < 0 then false else if num = 0 then true else s.table.any (fun c => c.num == num)

/-- `vortex_connection_remove_channel_common`, src/vortex_connection.c:4621-4655: the entry of that *number*
is removed. -/
def Starts.remove (s : Starts) (num : Int) : Starts :=
  { s with table := s.table.filter (fun c => c.num != num) }

/-- The channel object if the connection still holds it. -/
def Starts.live (s : Starts) (chan : Nat) : Option StChan := s.table.find? (fun c => c.id == chan)

/-- `vortex_channel_notify_start_internal`, src/vortex_channel.c:6922-7013. -/
def Starts.answer (s : Starts) (c : StChan) (action : Bool) : List StEvent × Starts :=
  if action then
    ([.answered c.req true],
      { s with table := s.table.map (fun d => if d.id == c.id then { d with opened := true } else d) })
  else ([.answered c.req false], s.remove c.num)

/-- `__vortex_channel_0_handle_start_msg_reply` up to the start handler, src/vortex_channel.c:7103-7171, for
the `i`-th running request. The profile is looked up three times there (lines 7119, 7127 and
src/vortex_profiles.c:732); here in one step: if it is unregistered in between, the answer is negative too. -/
def Starts.handle (s : Starts) (i : Nat) (r : StReq) : List StEvent × Starts :=
  let drop := { s with running := s.running.eraseIdx i }
  if !s.profiles.contains r.uri then ([.answered r.req false], drop)
  -- `vortex_connection_add_channel_common`, src/vortex_connection.c:4550-4594
  else if s.table.any (fun c => c.num == r.num) then
    ([.answered r.req false], { drop with created := s.created + 1 })
  -- src/vortex_profiles.c:727
  else if r.num < 0 then ([.answered r.req false], { drop with created := s.created + 1 })
  else
    ([.offered r.req r.uri],
      { s with table := s.table ++ [⟨s.created, r.num, r.req, false⟩],
               created := s.created + 1,
               running := s.running.set i { r with phase := .handler s.created } })

def Starts.step (s : Starts) : StOp → List StEvent × Starts
  -- `vortex_profiles_register`, src/vortex_profiles.c:309-375
  | .register uri =>
    ([.registered uri], { s with profiles := if s.profiles.contains uri then s.profiles else s.profiles ++ [uri] })
  -- `vortex_profiles_unregister`, src/vortex_profiles.c:448-476
  | .unregister uri => ([.unregistered uri], { s with profiles := s.profiles.filter (fun u => u != uri) })
  -- `vortex_connection_set_profile_mask`, src/vortex_connection.c:3893-3933
  | .setMask => ([.masked], { s with masks := s.masks + 1 })
  -- `__vortex_channel_0_frame_received_start_msg`, src/vortex_channel.c:7231-7288
  | .start num uri =>
    let s' := { s with received := s.received + 1 }
    if s.exists num then ([.received s.received num uri, .answered s.received false], s')
    else ([.received s.received num uri],
      { s' with running := s.running ++ [⟨s.received, num, uri, .masks 0⟩] })
  -- `vortex_connection_is_profile_filtered`, src/vortex_connection.c:3975-4024, and
  -- src/vortex_channel.c:7291-7321
  | .proceed i filters skip =>
    match s.running[i]? with
    | none => ([], s)
    | some r =>
      match r.phase with
      | .handler _ => ([], s)
      | .masks k =>
        if k < s.masks then
          if filters then
            ([.consulted r.req k true, if skip then .skipped r.req else .answered r.req false],
              { s with running := s.running.eraseIdx i })
          else
            ([.consulted r.req k false], { s with running := s.running.set i { r with phase := .masks (k + 1) } })
        else s.handle i r
  -- src/vortex_channel.c:7086-7096
  | .defer chan =>
    match s.live chan with
    | none => ([.released chan], s)
    | some _ => ([], { s with deferred := chan :: s.deferred })
  -- src/vortex_channel.c:7171-7219
  | .handlerReturns i status =>
    match s.running[i]? with
    | none => ([], s)
    | some r =>
      match r.phase with
      | .masks _ => ([], s)
      | .handler chan =>
        let s' := { s with running := s.running.eraseIdx i }
        match s.live chan with
        | none => ([.released chan], s')
        | some c =>
          if s.deferred.contains chan then ([], { s' with waiting := s.waiting ++ [(chan, r.req)] })
          else s'.answer c status
  -- `vortex_channel_notify_start`, src/vortex_channel.c:7031-7070
  | .notify chan action =>
    match s.live chan with
    | none => ([.released chan], s)
    | some c => { s with waiting := s.waiting.filter (fun w => w.1 != chan) }.answer c action
  -- the end of the close handshake, src/vortex_channel.c:7752
  | .close chan =>
    match s.live chan with
    | none => ([], s)
    | some c => ([.closed c.req], s.remove c.num)

def Starts.run (s : Starts) : List StOp → List StEvent × Starts
  | [] => ([], s)
  | op :: ops =>
    let r := s.step op
    let q := r.2.run ops
    (r.1 ++ q.1, q.2)

end Verif.Model
