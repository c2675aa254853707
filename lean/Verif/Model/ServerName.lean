/-!
# The serverName of a connection (src/vortex_connection.c, src/vortex_channel.c)

One connection, with the calls that create channels at one side (the client) and the start messages handled at the other one (the
server). Start messages arrive in the order in which they were sent. Names are lists of characters without NUL, and without the
characters that mean something in XML (src/vortex_frame_factory.c:2983-2999 does not escape them). Replies are handed to the thread that waits
for them (C12, C20). Not modelled: broken connections, channels closed before the call that creates them returns, and the server creating
channels itself.
-/
namespace Verif.Model

abbrev SName := List Char

/-- What is configured: `vortex_ctx_server_name_acquire`, src/vortex_ctx.c:631-639; the options given to `vortex_connection_new_full`, if
any: VORTEX_SERVERNAME_FEATURE and VORTEX_SERVERNAME_ACQUIRE (default true), src/vortex_connection.c:90-132; the host. -/
structure SnConf where
  ctxAcquire : Bool
  opts : Option (Option SName × Bool)
  host : SName
  deriving DecidableEq, Repr

/-- The data "vo:opts:serverName" of the connection, src/vortex_connection.c:2010-2011. -/
def snStoredName (c : SnConf) : Option SName :=
  match c.opts with
  | some (n, _) => n
  | none => none

/-- The data "vo:opts:serverNameAcquire" of the connection, src/vortex_connection.c:2008-2009. -/
def snStoredAcquire (c : SnConf) : Option Bool :=
  match c.opts with
  | some (_, true) => some true
  | _ => none

/-- `vortex_connection_opts_get_serverName`, src/vortex_connection.c:217-244. -/
def snOpts (c : SnConf) : Option SName :=
  if c.ctxAcquire = false then none
  else match snStoredName c with
    | some n => some n
    | none =>
      match snStoredAcquire c with
      | some v => if v then some c.host else none
      | none => some c.host

/-- The name requested by `vortex_channel_new_full`, src/vortex_channel.c:1362-1365; `bound` is the name of the connection. -/
def snRequested (c : SnConf) (bound explicit : Option SName) : Option SName :=
  if explicit = none ∧ bound = none then snOpts c else explicit

/-- What `vortex_connection_set_server_name` stores, src/vortex_connection.c:4912-4922: each colon is replaced by a NUL. -/
def snCut : SName → SName
  | [] => []
  | c :: r => if c = ':' then [] else c :: snCut r

/-- A thread that creates a channel. -/
inductive SnClient
  | idle
  /-- src/vortex_channel.c:1362-1365 done -/
  | asked (req : Option SName)
  /-- start message sent, src/vortex_channel.c:974 -/
  | waiting (req : Option SName)
  /-- the reply is there, src/vortex_channel.c:998 -/
  | replied (req : Option SName) (ok : Bool)
  /-- in `vortex_connection_set_server_name`, the name was found not to be set, src/vortex_connection.c:4909 -/
  | writing (n : SName)
  deriving DecidableEq, Repr

/-- A request at the server. -/
inductive SnServer
  | none
  /-- `vortex_channel_defer_start` -/
  | deferred (n : Option SName)
  /-- in `vortex_channel_notify_start_internal`, with the channel accepted -/
  | accepted (n : Option SName)
  /-- in `vortex_connection_set_server_name`, the name was found not to be set -/
  | writing (n : SName)
  deriving DecidableEq, Repr

inductive SnVerdict
  /-- not offered to the start handler: channel in use, profile filtered, unknown or without start handler -/
  | refused
  | denied
  | accepted
  | deferred
  deriving DecidableEq, Repr

structure SnState where
  /-- `vortex_connection_get_server_name` at the client -/
  cName : Option SName
  /-- `vortex_connection_get_server_name` at the server -/
  sName : Option SName
  cl : Nat → SnClient
  /-- start messages, with the thread that sent them -/
  wire : List (Nat × Option SName)
  sv : Nat → SnServer
  /-- the request the thread that handles channel 0 of the server works on -/
  busy : Option Nat
  replies : List (Nat × Bool)

def SnState.init : SnState := ⟨none, none, fun _ => .idle, [], fun _ => .none, none, []⟩

inductive SnOp
  /-- thread `c` calls `vortex_channel_new_full` with this serverName -/
  | ask (c : Nat) (explicit : Option SName)
  | send (c : Nat)
  | take (c : Nat)
  | goC (c : Nat)
  /-- the server handles a start message -/
  | serve (v : SnVerdict)
  /-- `vortex_channel_notify_start` -/
  | settle (c : Nat) (ok : Bool)
  | goS (c : Nat)
  deriving DecidableEq, Repr

inductive SnEvent
  /-- a channel is asked for with this serverName -/
  | asked (c : Nat) (req : Option SName)
  /-- the start handler, for the request of thread `c`, is called with this serverName -/
  | told (c : Nat) (n : Option SName)
  /-- the call of thread `c` returns the channel -/
  | created (c : Nat)
  | failed (c : Nat)
  deriving DecidableEq, Repr

def snSetC (s : SnState) (c : Nat) (p : SnClient) : SnState := { s with cl := fun d => if d = c then p else s.cl d }

def snSetS (s : SnState) (c : Nat) (p : SnServer) : SnState := { s with sv := fun d => if d = c then p else s.sv d }

/-- The server answers the request of thread `c`. -/
def snReply (s : SnState) (c : Nat) (ok : Bool) : SnState :=
  { snSetS s c .none with replies := s.replies ++ [(c, ok)], busy := if s.busy = some c then none else s.busy }

/-- `__vortex_channel_0_frame_received_start_msg`, src/vortex_channel.c:7232-7331, up to the call of the start handler and its result. -/
def snServe (s : SnState) (v : SnVerdict) : SnState × List SnEvent :=
  match s.busy, s.wire with
  | some _, _ => (s, [])
  | none, [] => (s, [])
  | none, (c, req) :: w =>
    let s := { s with wire := w }
    -- :7264-7274
    let n := match s.sName, req with
      | some b, some r => if r ≠ b then some b else some r
      | some b, none => some b
      | none, r => r
    match v with
    -- :7277-7289, :7291-7316, :7118-7131
    | .refused => (snReply s c false, [])
    -- :7188-7207
    | .denied => (snReply s c false, [.told c n])
    -- :7210-7215
    | .accepted => ({ snSetS s c (.accepted n) with busy := some c }, [.told c n])
    -- :7160-7181
    | .deferred => (snSetS s c (.deferred n), [.told c n])

def snStep (conf : SnConf) (s : SnState) : SnOp → SnState × List SnEvent
  | .ask c explicit =>
    match s.cl c with
    | .idle => (snSetC s c (.asked (snRequested conf s.cName explicit)), [.asked c (snRequested conf s.cName explicit)])
    | _ => (s, [])
  | .send c =>
    match s.cl c with
    | .asked req => ({ snSetC s c (.waiting req) with wire := s.wire ++ [(c, req)] }, [])
    | _ => (s, [])
  | .take c =>
    match s.cl c, s.replies.find? (·.1 = c) with
    | .waiting req, some r => ({ snSetC s c (.replied req r.2) with replies := s.replies.erase r }, [])
    | _, _ => (s, [])
  -- src/vortex_channel.c:1027-1050, src/vortex_connection.c:4905-4925
  | .goC c =>
    match s.cl c with
    | .replied _ false => (snSetC s c .idle, [.failed c])
    | .replied none true => (snSetC s c .idle, [.created c])
    | .replied (some x) true => if s.cName = none then (snSetC s c (.writing x), []) else (snSetC s c .idle, [.created c])
    | .writing x => ({ snSetC s c .idle with cName := some (snCut x) }, [.created c])
    | _ => (s, [])
  | .serve v => snServe s v
  -- src/vortex_channel.c:7034-7070, :6937-6964
  | .settle c ok =>
    match s.sv c with
    | .deferred n => if ok then (snSetS s c (.accepted n), []) else (snReply s c false, [])
    | _ => (s, [])
  -- src/vortex_channel.c:6966-7011
  | .goS c =>
    match s.sv c with
    | .accepted none => (snReply s c true, [])
    | .accepted (some x) => if s.sName = none then (snSetS s c (.writing x), []) else (snReply s c true, [])
    | .writing x => ({ snReply s c true with sName := some (snCut x) }, [])
    | _ => (s, [])

def snRun (conf : SnConf) (s : SnState) (log : List SnEvent) : List SnOp → SnState × List SnEvent
  | [] => (s, log)
  | op :: ops => snRun conf (snStep conf s op).1 (log ++ (snStep conf s op).2) ops

end Verif.Model
