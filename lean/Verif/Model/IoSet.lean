import Verif.Model.CInt
/-!
# The sets of descriptors to wait for (src/vortex_io.c), and serving them with select (src/vortex_reader.c:1086-1199)

Descriptors and connections are numbers. The kernel is an environment: which descriptors are ready is input. `none` is undefined
behaviour: an index outside the memory allocated, or an overflow of `int`. Not modelled: the mechanism failing to be created.
-/
namespace Verif.Model

/-- `vortex_conf_get (ctx, VORTEX_HARD_SOCK_LIMIT, &max)`, src/vortex.c:407-421: the limit of the system (`none` if it cannot be
read) is assigned to an `int`. -/
def hardSockLimit : Option Nat → Option Int
  | none => none
  | some r => some (i32 (r : Int))

/-- `__vortex_io_waiting_next_size`, src/vortex_io.c:86-105. -/
def ioNextSize (current hardLimit : Int) (itemSize : Nat) : Option Int :=
  if current ≥ hardLimit then some current
  else if current > 0 ∧ current * 2 > 2147483647 then none
  else
    let n := if current > 0 then current * 2 else 4096
    let n := if n ≤ current ∨ n > hardLimit then hardLimit else n
    if u64 n > 18446744073709551615 / itemSize then some current else some n

/-- `VortexPoll`, src/vortex_io.c:293-300. The used part of the two arrays is kept as one list. -/
structure PollSet where
  max : Nat
  items : List (Nat × Nat)
  /-- the items allocated for `set` and for `connections` -/
  setCap : Nat
  connCap : Nat
  deriving DecidableEq, Repr

/-- The size at creation, src/vortex_io.c:324-326, 615-617. -/
def ioFirstSize (limit : Int) : Nat := if limit ≤ 0 ∨ limit > 4096 then 4096 else limit.toNat

/-- `__vortex_io_waiting_poll_create`, src/vortex_io.c:309-350, with memory. -/
def PollSet.create (limit : Int) : PollSet := ⟨ioFirstSize limit, [], ioFirstSize limit, ioFirstSize limit⟩

/-- `__vortex_io_waiting_poll_clear`, src/vortex_io.c:376-389. -/
def PollSet.clear (s : PollSet) : Option PollSet :=
  if s.items.length > s.setCap then none else some { s with items := [] }

/-- The last part of `__vortex_io_waiting_poll_add_to`, src/vortex_io.c:450-467. -/
def PollSet.store (s : PollSet) (fd conn : Nat) : Option (PollSet × Bool) :=
  if s.items.length < s.setCap ∧ s.items.length < s.connCap then some ({ s with items := s.items ++ [(fd, conn)] }, true) else none

/-- `__vortex_io_waiting_poll_add_to`, src/vortex_io.c:399-469; `alloc1` and `alloc2` tell if the two allocations succeed. -/
def PollSet.add (s : PollSet) (rlim : Option Nat) (alloc1 alloc2 : Bool) (fd conn : Nat) : Option (PollSet × Bool) :=
  if s.items.length = s.max then
    match hardSockLimit rlim with
    | none => some (s, false)
    | some limit =>
      match ioNextSize s.max limit 8 with
      | none => none
      | some n =>
        if n = s.max then some (s, false)
        else if alloc1 = false then some (s, false)
        else if alloc2 = false then some ({ s with setCap := n.toNat }, false)
        else { s with setCap := n.toNat, connCap := n.toNat, max := n.toNat }.store fd conn
  else s.store fd conn

inductive IoOp
  | add (rlim : Option Nat) (alloc1 alloc2 : Bool) (fd conn : Nat)
  | clear
  deriving DecidableEq, Repr

/-- One use of the set, and what it tells. -/
def PollSet.step (s : PollSet) : IoOp → Option (PollSet × Bool)
  | .add r a b fd c => s.add r a b fd c
  | .clear => s.clear.map (·, true)

def PollSet.run (s : PollSet) : List IoOp → Option (PollSet × List Bool)
  | [] => some (s, [])
  | op :: ops =>
    match s.step op with
    | none => none
    | some r =>
      match r.1.run ops with
      | none => none
      | some q => some (q.1, r.2 :: q.2)

/-- What the kernel tells about a descriptor: POLLIN, POLLPRI, POLLOUT, anything else. -/
structure IoReady where
  inp : Bool
  pri : Bool
  out : Bool
  other : Bool
  deriving DecidableEq, Repr

/-- The test in the dispatch functions, src/vortex_io.c:519-523, 546-547, 822-824, 843-844. -/
def IoReady.wanted (r : IoReady) (read : Bool) : Bool := if read then r.inp || r.pri else r.out

/-- `__vortex_io_waiting_poll_dispatch`, src/vortex_io.c:508-569: the descriptors and connections handed to the dispatch function.
`left` is `changed - checked`. -/
def pollDispatch (read : Bool) : List ((Nat × Nat) × IoReady) → Nat → List (Nat × Nat)
  | [], _ => []
  | (i, r) :: l, left =>
    if left = 0 then []
    else if r.wanted read then i :: pollDispatch read l (left - 1)
    else pollDispatch read l left

/-- `VortexEPoll`, src/vortex_io.c:577-584, with the set in the kernel. -/
structure EPollSet where
  max : Nat
  length : Nat
  /-- descriptors registered, each with its connection -/
  items : List (Nat × Nat)
  /-- the items allocated for `events` -/
  cap : Nat
  deriving DecidableEq, Repr

/-- `__vortex_io_waiting_epoll_create`, src/vortex_io.c:600-650, with memory. -/
def EPollSet.create (limit : Int) : EPollSet := ⟨ioFirstSize limit, 0, [], ioFirstSize limit⟩

/-- `__vortex_io_waiting_epoll_clear`, src/vortex_io.c:677-692. -/
def EPollSet.clear (s : EPollSet) : EPollSet := { s with length := 0, items := [] }

/-- The last part of `__vortex_io_waiting_epoll_add_to`, src/vortex_io.c:745-772: a descriptor already there stays as it is
(`EEXIST`). -/
def EPollSet.store (s : EPollSet) (fd conn : Nat) : EPollSet :=
  { s with length := s.length + 1, items := if s.items.any (·.1 == fd) then s.items else s.items ++ [(fd, conn)] }

/-- `__vortex_io_waiting_epoll_add_to`, src/vortex_io.c:702-773. `struct epoll_event` has 12 octets. Simplified: `epoll_ctl` does not
fail otherwise. -/
def EPollSet.add (s : EPollSet) (rlim : Option Nat) (alloc : Bool) (fd conn : Nat) : Option (EPollSet × Bool) :=
  if s.length = s.max then
    match hardSockLimit rlim with
    | none => some (s, false)
    | some limit =>
      match ioNextSize s.max limit 12 with
      | none => none
      | some n =>
        if n = s.max then some (s, false)
        else if alloc = false then some (s, false)
        else some ({ s with cap := n.toNat, max := n.toNat }.store fd conn, true)
  else some (s.store fd conn, true)

def EPollSet.step (s : EPollSet) : IoOp → Option (EPollSet × Bool)
  | .add r a _ fd c => s.add r a fd c
  | .clear => some (s.clear, true)

def EPollSet.run (s : EPollSet) : List IoOp → Option (EPollSet × List Bool)
  | [] => some (s, [])
  | op :: ops =>
    match s.step op with
    | none => none
    | some r =>
      match r.1.run ops with
      | none => none
      | some q => some (q.1, r.2 :: q.2)

/-- `epoll_wait (epoll->set, epoll->events, epoll->length, …)`, src/vortex_io.c:793-797: the kernel writes what is ready, at most
`length` items. -/
def EPollSet.wait (s : EPollSet) (ready : Nat × Nat → IoReady) : Option (List ((Nat × Nat) × IoReady)) :=
  let events := ((s.items.map fun i => (i, ready i)).filter fun e => e.2.inp || e.2.pri || e.2.out || e.2.other).take s.length
  if events.length > s.cap then none else some events

/-- `__vortex_io_waiting_epoll_dispatch`, src/vortex_io.c:807-865. -/
def epollDispatch (read : Bool) (events : List ((Nat × Nat) × IoReady)) (changed length : Nat) : List (Nat × Nat) :=
  (((events.take changed).take length).filter fun e => e.2.wanted read).map (·.1)

/-- A listener or connection in a round with select. -/
structure SelectItem where
  id : Nat
  /-- its descriptor is in the set that `select` returns -/
  ready : Bool
  /-- it has a handler to be called before reading -/
  preread : Bool
  deriving DecidableEq, Repr

inductive SelectEvent
  /-- a new connection is accepted -/
  | accept (id : Nat)
  /-- the preread handler of a listener is called -/
  | preread (id : Nat)
  /-- what the connection has is read -/
  | process (id : Nat)
  /-- the reference of the reader is released -/
  | release (id : Nat)
  deriving DecidableEq, Repr

/-- `__vortex_reader_check_listener_list`, src/vortex_reader.c:1137-1199. `closes id` are the ones closed while `id` is served. The
result: the events, who is closed, and how many are left. -/
def checkListeners (closes : Nat → List Nat) (changed : Int) : List SelectItem → List Nat → Nat → List SelectEvent × List Nat × Int
  | [], closed, checked => ([], closed, changed - checked)
  | l :: ls, closed, checked =>
    if closed.contains l.id then
      let r := checkListeners closes changed ls closed (checked + 1)
      (.release l.id :: r.1, r.2)
    else if l.ready then
      if (checked + 1 : Nat) = changed then ([.accept l.id], closed ++ closes l.id, 0)
      else
        let r := checkListeners closes changed ls (closed ++ closes l.id) (checked + 1)
        (.accept l.id :: r.1, r.2)
    else if (checked : Int) = changed then ([], closed, 0)
    else checkListeners closes changed ls closed checked

/-- `__vortex_reader_check_connection_list`, src/vortex_reader.c:1086-1135. -/
def checkConns (closes : Nat → List Nat) (changed : Int) : List SelectItem → List Nat → Nat → List SelectEvent × List Nat
  | [], closed, _ => ([], closed)
  | c :: cs, closed, checked =>
    if changed = checked then ([], closed)
    else if closed.contains c.id then
      let r := checkConns closes changed cs closed checked
      (.release c.id :: r.1, r.2)
    else if c.ready then
      let r := checkConns closes changed cs (closed ++ closes c.id) (checked + 1)
      (.process c.id :: r.1, r.2)
    else checkConns closes changed cs closed checked

/-- A round with select, src/vortex_reader.c:1469-1473. -/
def selectRound (closes : Nat → List Nat) (listeners conns : List SelectItem) (closed : List Nat) (changed : Nat) :
    List SelectEvent × List Nat :=
  let a := checkListeners closes changed listeners closed 0
  let b := checkConns closes a.2.2 conns a.2.1 0
  (a.1 ++ b.1, b.2)

/-- `__vortex_reader_dispatch_connection` for a listener, src/vortex_reader.c:1268-1280. -/
def dispatchListener (l : SelectItem) : SelectEvent := if l.preread then .preread l.id else .accept l.id

end Verif.Model
