/-!
# Starting a context, ending it and starting it again in a child (src/vortex.c:972-1091, 1150-1285)

One context of one process: the threads that run, what the modules allocated and the references of the context. A call that starts it may fail
when the DTD is parsed or when a thread is created; a child process made with `fork` has the memory of its parent, but none of its threads.
Simplified: the modules without threads (mutexes, hashes, search paths) are one resource; several threads that end the context are in C79, the
references of connections and channels in C80.
-/
namespace Verif.Model

inductive ItMem
  /-- NULL; allocated; released, but the address is still there -/
  | null | live | freed
  deriving DecidableEq, Repr

structure It where
  /-- `vortex_initialized`, `vortex_exit` -/
  initialized : Bool
  ended : Bool
  /-- mutexes, hashes and lists of the modules -/
  modules : Bool
  /-- `channel_dtd` -/
  dtd : Bool
  /-- `reader_queue` and the lists of connections; `reader_stopped` -/
  queue : ItMem
  stopped : ItMem
  /-- `sequencer_state`, `sequencer_send_buffer` -/
  seqState : ItMem
  seqBuffer : ItMem
  /-- `thread_pool` -/
  pool : Bool
  /-- threads of this process: readers, senders and those of the pool -/
  readers : Nat
  senders : Nat
  workers : Nat
  /-- `ref_count`; of it the application's -/
  refs : Nat
  app : Nat
  /-- the memory of the context was released -/
  freed : Bool
  /-- released memory was used, or a thread that does not exist was waited for -/
  bad : Bool
  /-- what the calls that start the context returned -/
  answers : List Bool
  deriving DecidableEq, Repr

/-- `vortex_ctx_new` (src/vortex_ctx.c:80-112). -/
def It.new : It := ⟨false, false, false, false, .null, .null, .null, .null, false, 0, 0, 0, 1, 1, false, false, []⟩

/-- What the system does while the context is started. -/
structure ItEnv where
  dtd : Bool
  reader : Bool
  sender : Bool
  /-- the threads the pool should have, src/vortex.c:1081; those that can be created -/
  want : Nat
  got : Nat
  deriving DecidableEq, Repr

inductive ItOp
  | init (e : ItEnv)
  | exit (free : Bool)
  /-- go on in a child -/
  | fork
  /-- `vortex_ctx_reinit` (src/vortex_ctx.c:117-126) -/
  | reinit
  /-- `vortex_ctx_free` by the application -/
  | free
  deriving DecidableEq, Repr

/-- `vortex_reader_run` (src/vortex_reader.c:1607-1657): what it finds there it releases, though a reader may use it. -/
def It.readerRun (s : It) (ok : Bool) : It :=
  { s with queue := .live, stopped := .live, bad := s.bad || s.queue == .freed || s.stopped == .freed || decide (0 < s.readers),
           readers := if ok then s.readers + 1 else s.readers }

/-- `vortex_sequencer_run` (src/vortex_sequencer.c:716-746): the buffer is only allocated when the address is NULL. -/
def It.senderRun (s : It) (ok : Bool) : It :=
  { s with seqState := .live, seqBuffer := if s.seqBuffer = .null then .live else s.seqBuffer, refs := s.refs + 1,
           bad := s.bad || s.seqBuffer == .freed || decide (0 < s.senders), senders := if ok then s.senders + 1 else s.senders }

/-- `vortex_thread_pool_init` and `vortex_thread_pool_add_internal` (src/vortex_thread_pool.c:487-534, 645-711): a thread that could not be
created is waited for, :700. -/
def It.poolRun (s : It) (want got : Nat) : It :=
  { s with pool := true, workers := s.workers + min want got, refs := s.refs + min want got,
           bad := s.bad || decide (got < want) || decide (0 < s.workers) }

/-- `vortex_ctx_free2` (src/vortex_ctx.c:782-836). -/
def It.drop (s : It) : It :=
  if s.refs = 0 then { s with bad := true } else if s.refs = 1 then { s with refs := 0, freed := true } else { s with refs := s.refs - 1 }

/-- `vortex_init_ctx`, src/vortex.c:972-1091. -/
def It.init (s : It) (e : ItEnv) : It :=
  let s := { s with modules := true, bad := s.bad || s.freed }
  if (s.dtd || e.dtd) = false then { s with answers := s.answers ++ [false] } else
  let s := { s with dtd := true }.readerRun e.reader
  if e.reader = false then { s with answers := s.answers ++ [false] } else
  let s := s.senderRun e.sender
  if e.sender = false then { s with answers := s.answers ++ [false] } else
  let s := s.poolRun e.want e.got
  { s with initialized := true, answers := s.answers ++ [true] }

/-- `vortex_exit_ctx`, src/vortex.c:1150-1285, with `vortex_reader_stop` (src/vortex_reader.c:1663-1695), `vortex_sequencer_stop`
(src/vortex_sequencer.c:752-786) and `vortex_thread_pool_exit` (src/vortex_thread_pool.c:807-870). The thread that sends and those of the
pool give their references back when they end. -/
def It.exit (s : It) (free : Bool) : It :=
  let s := { s with bad := s.bad || s.freed }
  if s.initialized = false ∨ s.ended then s else
  let s := { s with
    ended := true
    queue := .freed, stopped := .freed, seqState := .null, seqBuffer := .freed, pool := false, modules := false, dtd := false
    refs := s.refs - s.senders - s.workers
    -- the thread that sends is waited for though it may not exist
    bad := s.bad || decide (s.senders = 0)
    readers := s.readers - 1, senders := 0, workers := 0 }
  if free then { s with app := s.app - 1 }.drop else s

def It.step (s : It) : ItOp → It
  | .init e => s.init e
  | .exit free => s.exit free
  | .fork => { s with readers := 0, senders := 0, workers := 0 }
  | .reinit => { s with refs := 1, app := 1, bad := s.bad || s.freed }
  | .free => if 0 < s.app then { s with app := s.app - 1 }.drop else s

def It.run (s : It) (ops : List ItOp) : It := ops.foldl It.step s

end Verif.Model
