import Verif.Model.CInt
/-!
# The configuration of a context (src/vortex.c:362-565) and its use

The limits of descriptors belong to the process: `setrlimit` of Linux is an environment. Not modelled: calls without a context or
without a place for the value (both are refused), the Windows branch.
-/
namespace Verif.Model

/-- `struct rlimit`: values below 2^64. -/
structure ConfLimit where
  cur : Nat
  max : Nat
  deriving DecidableEq, Repr

/-- What the kernel allows: whether limits can be read, whether the process may raise the upper limit, and the bound of the system for
it; and the profile of each channel. -/
structure ConfEnv where
  readable : Bool
  privileged : Bool
  nrOpen : Nat
  profile : Nat → Nat

/-- `setrlimit (RLIMIT_NOFILE, …)`, setrlimit(2). -/
def ConfEnv.setLimit (e : ConfEnv) (old new : ConfLimit) : Option ConfLimit :=
  if new.cur > new.max then none
  else if new.max > e.nrOpen then none
  else if new.max > old.max ∧ e.privileged = false then none
  else some new

/-- The limits of the process; `backlog`, `enforce_profiles_supported`, `automatic_mime`, `skip_thread_pool_wait` of the context
(src/vortex_ctx_private.h:91-100); `automatic_mime` of each profile (src/vortex_profiles.c:59) and channel
(src/vortex_channel.c:388). -/
structure ConfState where
  limit : ConfLimit
  backlog : Int
  enforce : Int
  mime : Int
  skip : Int
  profMime : Nat → Int
  chanMime : Nat → Int

/-- `vortex_ctx_new`, src/vortex_ctx.c:81-115: the memory is cleared, and none of these fields is set. -/
def ConfState.new (l : ConfLimit) : ConfState := ⟨l, 0, 0, 0, 0, fun _ => 0, fun _ => 0⟩

/-- `vortex_conf_get`, src/vortex.c:362-443: the items are the numbers of `VortexConfItem` (src/vortex.h:438-560). `none`: refused. -/
def ConfState.get (e : ConfEnv) (s : ConfState) (item : Int) : Option Int :=
  if item = 1 then (if e.readable then some (i32 s.limit.cur) else none)
  else if item = 2 then (if e.readable then some (i32 s.limit.max) else none)
  else if item = 3 then some s.backlog
  else if item = 4 then some s.enforce
  else if item = 5 then some s.mime
  else if item = 6 then some s.skip
  else none

/-- The upper limit that is set, src/vortex.c:520-527. -/
def confHard (cur value : Nat) : Nat := if value < cur then cur else value

/-- `vortex_conf_set`, src/vortex.c:462-565. -/
def ConfState.set (e : ConfEnv) (s : ConfState) (item value : Int) : ConfState × Bool :=
  -- `v_return_val_if_fail (value, axl_false)`
  if value = 0 then (s, false)
  else if item = 1 then
    if e.readable then
      match e.setLimit s.limit { s.limit with cur := u64 value } with
      | some l => ({ s with limit := l }, true)
      | none => (s, false)
    else (s, false)
  else if item = 2 then
    if e.readable then
      match e.setLimit s.limit { s.limit with max := confHard s.limit.cur (u64 value) } with
      | some l => ({ s with limit := l }, true)
      | none => (s, false)
    else (s, false)
  else if item = 3 then ({ s with backlog := value }, true)
  else if item = 4 then ({ s with enforce := value }, true)
  else if item = 5 then ({ s with mime := value }, true)
  else if item = 6 then ({ s with skip := value }, true)
  else (s, false)

inductive ConfOp
  /-- `vortex_conf_set` -/
  | set (item value : Int)
  /-- `vortex_conf_get` -/
  | get (item : Int)
  /-- `vortex_profiles_set_automatic_mime` of a registered profile -/
  | profMime (profile : Nat) (value : Int)
  /-- `vortex_channel_set_automatic_mime` -/
  | chanMime (channel : Nat) (value : Int)
  /-- a message is sent on the channel -/
  | send (channel : Nat)
  /-- a channel is asked for, with a profile that the peer announced or not -/
  | create (announced : Bool)
  /-- a listener is started -/
  | listen
  deriving DecidableEq, Repr

inductive ConfRes
  | done (ok : Bool)
  | value (v : Option Int)
  /-- whether MIME headers were added -/
  | headers (added : Bool)
  /-- the second parameter of `listen` -/
  | backlog (n : Int)
  deriving DecidableEq, Repr

/-- `process_mime_configuration`, src/vortex_channel.c:490-514: the value stored in the channel. -/
def confResolve (chan prof lib : Int) : Int :=
  if chan ≠ 0 then chan else if prof ≠ 0 then prof else if lib ≠ 0 then lib else 1

/-- src/vortex.c:362-565; src/vortex_profiles.c:1350-1371, src/vortex_channel.c:4047-4056 (values other than 0, 1, 2 are ignored);
src/vortex_channel.c:490-514; src/vortex_channel.c:861-872; src/vortex_listener.c:674-677. -/
def ConfState.step (e : ConfEnv) (s : ConfState) : ConfOp → ConfState × ConfRes
  | .set item v => ((s.set e item v).1, .done (s.set e item v).2)
  | .get item => (s, .value (s.get e item))
  | .profMime p v =>
    if v = 0 ∨ v = 1 ∨ v = 2 then ({ s with profMime := fun q => if q = p then v else s.profMime q }, .done true) else (s, .done false)
  | .chanMime c v =>
    if v = 0 ∨ v = 1 ∨ v = 2 then ({ s with chanMime := fun d => if d = c then v else s.chanMime d }, .done true) else (s, .done false)
  | .send c =>
    let v := confResolve (s.chanMime c) (s.profMime (e.profile c)) s.mime
    ({ s with chanMime := fun d => if d = c then v else s.chanMime d }, .headers (v != 2))
  | .create announced =>
    match s.get e 4 with
    | some v => (s, .done (!(v != 0 && !announced)))
    | none => (s, .done false)
  | .listen => (s, .backlog ((s.get e 3).getD 0))

/-- The results, with the calls they belong to. -/
def ConfState.run (e : ConfEnv) : ConfState → List ConfOp → ConfState × List (ConfOp × ConfRes)
  | s, [] => (s, [])
  | s, op :: r => (((s.step e op).1.run e r).1, (op, (s.step e op).2) :: ((s.step e op).1.run e r).2)

end Verif.Model
