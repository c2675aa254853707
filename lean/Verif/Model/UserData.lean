/-!
# Data the application stores with a connection, a channel or a context

`vortex_connection_set_data_full` (src/vortex_connection.c:6032-6056), `vortex_channel_set_data_full` (src/vortex_channel.c:4888-4904),
`vortex_ctx_set_data_full` (src/vortex_ctx.c:214-236), the functions that read and delete, and the release of the object they belong to,
on the hash of src/vortex_hash.c. Any number of threads; the destroy functions of the application may call these functions again. Keys are
numbers (strings that are equal have the same number); pointers are numbers. The hash itself (axl, not in /repo) is a list; the order in which
destroy functions are called is arbitrary.

Not modelled: waiting for changes (see C84), failing allocations.
-/
namespace Verif.Model

inductive UdKind
  | key
  | value
  deriving DecidableEq, Repr

/-- Something a destroy function was given for: the pointer of a key or of a value. -/
structure UdItem where
  kind : UdKind
  ptr : Nat
  deriving DecidableEq, Repr

/-- What is stored under `key`; `keyDestroy`, `valueDestroy`: there is a destroy function. -/
structure UdEntry where
  key : Nat
  keyPtr : Nat
  keyDestroy : Bool
  value : Nat
  valueDestroy : Bool
  deriving DecidableEq, Repr

/-- What `axl_hash_deferred_cleanup` or `axl_hash_free` (axl) have to destroy for it. -/
def UdEntry.items (e : UdEntry) : List UdItem :=
  (if e.keyDestroy then [⟨.key, e.keyPtr⟩] else []) ++ (if e.valueDestroy then [⟨.value, e.value⟩] else [])

inductive UdCall
  /-- `…_set_data_full` with a value -/
  | set (e : UdEntry)
  /-- `…_set_data_full` with NULL; the pointer of the key and whether there is a destroy function for it -/
  | unset (key keyPtr : Nat) (keyDestroy : Bool)
  /-- `vortex_channel_delete_data` (src/vortex_channel.c:4918-4929), `vortex_connection_delete_key_data` (src/vortex_connection.c:5981-5988) -/
  | delete (key : Nat)
  /-- `…_get_data` -/
  | get (key : Nat)
  deriving DecidableEq, Repr

/-- What a thread is doing: it waits for the mutex of the hash, or it calls destroy functions; `now`: the one that is running, `rest`: what
is left to destroy; `locked`: with the mutex of the hash. -/
inductive UdFrame
  | waiting (c : UdCall)
  | cleanup (now : Option UdItem) (rest : List UdItem) (locked : Bool)
  deriving DecidableEq, Repr

structure UdState where
  table : List UdEntry
  /-- what each thread is doing, the innermost call first -/
  stacks : List (List UdFrame)
  /-- the mutex of the hash is held -/
  locked : Bool
  /-- the last reference to the object was released -/
  released : Bool
  /-- its memory is freed -/
  freed : Bool
  deriving DecidableEq, Repr

/-- A new object and `n` threads. -/
def UdState.init (n : Nat) : UdState := ⟨[], List.replicate n [], false, false, false⟩

inductive UdOp
  /-- thread `t`, or the destroy function it runs, calls -/
  | call (t : Nat) (c : UdCall)
  /-- thread `t` goes on; of the destroy functions to call it takes number `j` -/
  | go (t j : Nat)
  /-- thread `t` releases the last reference: nobody else uses the object -/
  | release (t : Nat)
  deriving DecidableEq, Repr

inductive UdEvent
  /-- the call is not possible: the thread is somewhere else, or has no reference to the object -/
  | ignored
  /-- the call begins to wait for the mutex -/
  | blocked
  /-- the call changes or reads the table -/
  | done (c : UdCall) (result : Option Nat)
  /-- a destroy function is called -/
  | destroyed (i : UdItem)
  /-- the entry was removed without calling destroy functions -/
  | returned (i : UdItem)
  deriving DecidableEq, Repr

/-- The part of a call with the mutex: `vortex_hash_replace_full` (src/vortex_hash.c:270-303), `vortex_hash_remove` (493-522),
`vortex_hash_delete` (583-604), `vortex_hash_lookup` (339-354). Gives the table, what is left to destroy, and what happened. -/
def udPerform (table : List UdEntry) : UdCall → List UdEntry × List UdItem × List UdEvent
  | .set e =>
    (e :: table.filter (fun x => decide (x.key ≠ e.key)), (table.filter (fun x => decide (x.key = e.key))).flatMap UdEntry.items,
      [.done (.set e) none])
  | .unset k p d =>
    -- key_destroy is not used
    (table.filter (fun x => decide (x.key ≠ k)), (table.filter (fun x => decide (x.key = k))).flatMap UdEntry.items, [.done (.unset k p d) none])
  | .delete k =>
    (table.filter (fun x => decide (x.key ≠ k)), [],
      .done (.delete k) none :: ((table.filter (fun x => decide (x.key = k))).flatMap UdEntry.items).map .returned)
  | .get k => (table, [], [.done (.get k) ((table.find? (fun x => decide (x.key = k))).map UdEntry.value)])

/-- A call takes the mutex or waits. -/
def UdState.enter (s : UdState) (t : Nat) (c : UdCall) (stack : List UdFrame) : UdState × List UdEvent :=
  if s.locked then ({ s with stacks := s.stacks.set t (.waiting c :: stack) }, [.blocked])
  else
    let r := udPerform s.table c
    ({ s with table := r.1, stacks := s.stacks.set t (.cleanup none r.2.1 false :: stack) }, r.2.2)

/-- One step. The release is `vortex_hash_destroy` (src/vortex_hash.c:532-569) as called by `vortex_connection_free`
(src/vortex_connection.c:3637-3641), `vortex_channel_free` (src/vortex_channel.c:7976-7978) and `vortex_ctx_free` (src/vortex_ctx.c:801): destroy
functions run with the mutex. -/
def UdState.step (s : UdState) : UdOp → UdState × List UdEvent
  | .call t c =>
    match s.stacks[t]? with
    | none => (s, [.ignored])
    | some [] => if s.released then (s, [.ignored]) else s.enter t c []
    | some (.cleanup (some i) rest l :: stack) => s.enter t c (.cleanup (some i) rest l :: stack)
    | some _ => (s, [.ignored])
  | .go t j =>
    match s.stacks[t]? with
    | none => (s, [.ignored])
    | some [] => (s, [.ignored])
    | some (.waiting c :: stack) => if s.locked then (s, []) else s.enter t c stack
    | some (.cleanup (some _) rest l :: stack) => ({ s with stacks := s.stacks.set t (.cleanup none rest l :: stack) }, [])
    | some (.cleanup none [] l :: stack) =>
      ({ s with stacks := s.stacks.set t stack, locked := if l then false else s.locked, freed := s.freed || l }, [])
    | some (.cleanup none (i :: rest) l :: stack) =>
      let k := (i :: rest)[j]?.getD i
      ({ s with stacks := s.stacks.set t (.cleanup (some k) ((i :: rest).erase k) l :: stack) }, [.destroyed k])
  | .release t =>
    if s.released || s.locked || !(s.stacks.all List.isEmpty) || decide (s.stacks.length ≤ t) then (s, [.ignored])
    else
      (⟨[], s.stacks.set t [.cleanup none (s.table.flatMap UdEntry.items) true], true, true, s.freed⟩, [])

/-- The steps with what happened. -/
def UdState.run : UdState → List UdOp → UdState × List (UdOp × List UdEvent)
  | s, [] => (s, [])
  | s, op :: r => (((s.step op).1.run r).1, (op, (s.step op).2) :: ((s.step op).1.run r).2)

end Verif.Model
