import Verif.Model.CInt
/-!
Connecting a socket: `vortex_gethostbyname`, src/vortex_connection.c:1364-1430, `__vortex_connection_wait_on`, :1468-1609, and
`vortex_connection_sock_connect_common`, :1703-1871, as called by `__vortex_connection_new` (with a place for the timeout).

The clock is a function that tells what each call of `time (NULL)` in turn returns; what the waiting mechanism finds is a list. Simplified: the
number of seconds fits in an `int`; the readings of the clock in log messages are left out; on Unix.
-/
namespace Verif.Model

/-! ## Waiting for a socket -/

/-- What one round of the loop in `__vortex_connection_wait_on` finds. -/
inductive CwOut
  /-- the socket could not be added to the set, :1517-1521 -/
  | noAdd
  /-- the socket is ready, and `getsockopt (SO_ERROR)` tells no error, an error, or fails, :1568-1588 -/
  | ready
  | sockErr (e : Nat)
  | noSockOpt
  /-- the time of one round is over: 0 -/
  | round
  /-- -2, :1538 -/
  | again
  /-- -1 with this `errno` -/
  | failed (errno : Nat)
  /-- any other negative number, :1592 -/
  | fatal
  deriving DecidableEq, Repr

def EBADF : Nat := 9
def EINTR : Nat := 4
def EAGAIN : Nat := 11

structure CwEnd where
  /-- the value returned -/
  ret : Int
  /-- `*sock_error` -/
  sockError : Nat
  /-- `*wait_period` afterwards -/
  period : Int
  /-- which reading of the clock is next -/
  reading : Nat
  /-- the waiting set was released -/
  setFreed : Bool
  deriving DecidableEq, Repr

/-- Behind the loop, :1597-1608. -/
def cwFinish (clock : Nat → Int) (start period : Int) (k : Nat) (err : Int) (sockError : Nat) : CwEnd :=
  ⟨if start + period ≤ clock k then -2 else err, sockError, period - (clock (k + 1) - start), k + 2, true⟩

inductive CwNext
  /-- another round, with `errno` not `EBADF` and this `err` -/
  | go (err : Int)
  | stop (e : CwEnd)
  deriving DecidableEq, Repr

/-- One round of the loop of `__vortex_connection_wait_on`, :1509-1594; `k`: the next reading of the clock; `bad`: `errno` is `EBADF`. A call
that succeeds leaves `errno` as it is, and the check of :1530-1535 comes first. -/
def cwRound (clock : Nat → Int) (start period : Int) (k : Nat) (bad : Bool) : CwOut → CwNext
  | .noAdd => .stop (cwFinish clock start period k (-4) 0)
  | .failed e =>
    if e = EBADF then .stop ⟨-3, 0, period, k, true⟩
    else if e = EINTR ∨ e = EAGAIN then .go (-1)
    else .stop ⟨-3, e, period, k, true⟩
  | .again => if bad then .stop ⟨-3, 0, period, k, true⟩ else .go (-2)
  | .round => if bad then .stop ⟨-3, 0, period, k, true⟩ else .go 0
  | .ready => .stop (if bad then ⟨-3, 0, period, k, true⟩ else cwFinish clock start period k 1 0)
  | .sockErr e => .stop (if bad then ⟨-3, 0, period, k, true⟩ else cwFinish clock start period k (-6) e)
  | .noSockOpt => .stop (if bad then ⟨-3, 0, period, k, true⟩ else cwFinish clock start period k (-5) 0)
  -- :1592
  | .fatal => .stop (if bad then ⟨-3, 0, period, k, true⟩ else ⟨-1, 0, period, k, false⟩)

/-- The loop of `__vortex_connection_wait_on`, :1508-1595; `k`: the next reading of the clock; `err`: as in the code. `none`: it still
waits. -/
def cwLoop (clock : Nat → Int) (start period : Int) : (k : Nat) → (bad : Bool) → (err : Int) → List CwOut → Option CwEnd
  | k, _, err, [] => if start + period ≤ clock k then some (cwFinish clock start period (k + 1) err 0) else none
  | k, bad, err, o :: rest =>
    if start + period ≤ clock k then some (cwFinish clock start period (k + 1) err 0)
    else match cwRound clock start period (k + 1) bad o with
      | .stop e => some e
      | .go err => cwLoop clock start period (k + 1) false err rest

/-- `__vortex_connection_wait_on`, :1468-1609; the first reading of the clock is number `k`; `bad`: `errno` is `EBADF` when it is called. -/
def cwWait (clock : Nat → Int) (period : Int) (k : Nat) (bad : Bool) (outs : List CwOut) : Option CwEnd :=
  if period ≤ 0 then some ⟨-2, 0, period, k, true⟩
  else cwLoop clock (clock k) period (k + 1) bad (-2) outs

/-! ## Names -/

inductive Transport
  | ipv4
  | ipv6
  deriving DecidableEq, Repr

structure NetAddr where
  family : Transport
  addr : Nat
  deriving DecidableEq, Repr

/-- The text under which an address is stored, `"%s:%s"`, :1381. -/
def hostKey (host port : String) : String := host ++ ":" ++ port

/-- `ctx->connection_hostname` -/
abbrev HostCache := List (String × NetAddr)

/-- `vortex_gethostbyname`, :1364-1430; `dns` is what `getaddrinfo` finds now. -/
def hostLookup (dns : String → String → Transport → Option NetAddr) (cache : HostCache) (host port : String) (t : Transport) :
    Option NetAddr × HostCache :=
  match cache.lookup (hostKey host port) with
  | some a => (some a, cache)
  | none => match dns host port t with
    | none => (none, cache)
    | some a => (some a, (hostKey host port, a) :: cache)

structure HostQuery where
  host : String
  port : String
  transport : Transport
  /-- what the name service would answer at that moment -/
  dns : String → String → Transport → Option NetAddr

/-- Names looked up one after the other in a context. -/
def hostLookups : HostCache → List HostQuery → List (Option NetAddr)
  | _, [] => []
  | cache, q :: rest =>
    let r := hostLookup q.dns cache q.host q.port q.transport
    r.1 :: hostLookups r.2 rest

/-! ## The connection -/

/-- What `connect` does. -/
inductive TcpConnect
  | done
  /-- `EINPROGRESS` or `EWOULDBLOCK`; only for a socket that does not block -/
  | progress
  | failed (errno : Nat)
  deriving DecidableEq, Repr

/-- The state of the socket behind the call. -/
inductive TcpSock
  /-- none was created -/
  | none
  | closed
  | connecting
  | connected
  deriving DecidableEq, Repr

inductive TcpError
  | resolve
  | socket
  | connect
  | timeout
  deriving DecidableEq, Repr

structure TcpEnv where
  resolved : Bool
  socketOk : Bool
  /-- `vortex_connection_check_socket_limit`, which closes the socket if not -/
  limitOk : Bool
  sane : Bool
  /-- `vortex_connection_get_connect_timeout`, in microseconds -/
  timeout : Int
  /-- the result of `connect` on a socket that blocks, and on one that does not -/
  blocking : TcpConnect
  nonBlocking : TcpConnect
  clock : Nat → Int
  /-- `errno` is `EBADF` when the wait begins -/
  bad : Bool
  outs : List CwOut

structure TcpResult where
  /-- a socket is returned -/
  ok : Bool
  sock : TcpSock
  error : Option TcpError
  /-- `*timeout` afterwards, in seconds -/
  left : Int
  deriving DecidableEq, Repr

/-- `vortex_connection_sock_connect_common`, :1703-1871. `none`: it still waits. -/
def tcpConnect (e : TcpEnv) : Option TcpResult :=
  if e.resolved = false then some ⟨false, .none, some .resolve, 0⟩
  else if e.socketOk = false then some ⟨false, .none, some .resolve, 0⟩
  else if e.limitOk = false then some ⟨false, .closed, some .socket, 0⟩
  else if e.sane = false then some ⟨false, .closed, some .socket, 0⟩
  else
    -- :1757-1767: the value is put into an `int`
    let us := i32 e.timeout
    let secs := if 0 < us then us.tdiv 1000000 else us
    match if 0 < us then e.nonBlocking else e.blocking with
    | .failed _ => some ⟨false, .closed, some .connect, secs⟩
    | c =>
      let sock : TcpSock := if c = .progress then .connecting else .connected
      -- :1789
      if 0 < secs then
        match cwWait e.clock secs 0 e.bad e.outs with
        | none => none
        | some w =>
          if w.ret ≤ 0 then some ⟨false, .closed, some (if w.ret = -2 then .timeout else .connect), w.period⟩
          else some ⟨true, .connected, none, w.period⟩
      else some ⟨true, sock, none, secs⟩

end Verif.Model
