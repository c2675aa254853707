/-!
The end of a context: `vortex_exit_ctx`, src/vortex.c:1143-1276, called by any number of threads, with the cleanup functions,
src/vortex_ctx.c:559-605; and `vortex_ctx_unref2`, src/vortex_ctx.c:726-805.

The context is initialized; stopping the modules (src/vortex.c:1172-1231) is one step, C66 and C48 say that reader and sequencer end.
A critical section is one step.
-/
namespace Verif.Model

/-- Where a thread is in `vortex_exit_ctx`. -/
inductive ExitPc
  /-- not called -/
  | out
  /-- saw the flag clear, about to lock the mutex, src/vortex.c:1153-1158 -/
  | checked
  /-- set the flag, src/vortex.c:1169 -/
  | stopping
  /-- at the loop over the cleanups with the next index, src/vortex.c:1244 -/
  | cleaning (k : Nat)
  /-- in the cleanup function at this index, src/vortex.c:1250 -/
  | inFunc (k : Nat)
  | returned
  deriving DecidableEq, Repr

structure CtxExit where
  /-- `ctx->vortex_exit` -/
  flag : Bool
  /-- `ctx->exit_mutex` was destroyed -/
  mutexGone : Bool
  /-- `ctx->cleanups` -/
  cleanups : Option (List Nat)
  pc : Nat → ExitPc
  /-- how often the engine was stopped -/
  stops : Nat
  /-- the cleanup functions called, in order -/
  called : List Nat

def CtxExit.init : CtxExit := ⟨false, false, none, fun _ => .out, 0, []⟩

inductive ExitAct
  /-- thread `i` calls `vortex_exit_ctx` -/
  | call (i : Nat)
  /-- thread `i` goes on -/
  | go (i : Nat)
  /-- `vortex_ctx_install_cleanup` by any thread -/
  | install (f : Nat)
  /-- `vortex_ctx_remove_cleanup` by any thread, also in a cleanup function -/
  | remove (f : Nat)
  deriving DecidableEq, Repr

def CtxExit.at (s : CtxExit) (i : Nat) (pc : ExitPc) : CtxExit := { s with pc := fun j => if j = i then pc else s.pc j }

/-- A step; `none` if a destroyed mutex is used. -/
def CtxExit.step (s : CtxExit) : ExitAct → Option CtxExit
  | .call i =>
    -- src/vortex.c:1149-1154
    match s.pc i with
    | .out => some (s.at i (if s.flag then .returned else .checked))
    | _ => some s
  | .go i =>
    match s.pc i with
    | .out => some s
    | .returned => some s
    -- src/vortex.c:1158-1169
    | .checked =>
      if s.mutexGone then none
      else if s.flag then some (s.at i .returned)
      else some ({ s with flag := true }.at i .stopping)
    -- src/vortex.c:1171-1238
    | .stopping =>
      let s := { s with stops := s.stops + 1, mutexGone := true }
      match s.cleanups with
      | none => some (s.at i .returned)
      | some _ => some (s.at i (.cleaning 0))
    -- src/vortex.c:1245-1262
    | .cleaning k =>
      match (s.cleanups.getD [])[k]? with
      | some f => some ({ s with called := s.called ++ [f] }.at i (.inFunc k))
      | none => some ({ s with cleanups := none }.at i .returned)
    | .inFunc k => some (s.at i (.cleaning (k + 1)))
  | .install f => some { s with cleanups := some (s.cleanups.getD [] ++ [f]) }
  | .remove f =>
    match s.cleanups with
    | none => some s
    | some l => some { s with cleanups := some (l.erase f) }

def CtxExit.run (s : CtxExit) : List ExitAct → Option CtxExit
  | [] => some s
  | a :: as =>
    match s.step a with
    | none => none
    | some r => r.run as

/-! ## Giving back a reference -/

/-- A thread that works with a context. -/
inductive UnrefPc
  /-- has no reference -/
  | without
  /-- has a reference and a pointer -/
  | has
  /-- in `vortex_ctx_unref2` between the look at the counter and `vortex_ctx_free2`, src/vortex_ctx.c:751-755 -/
  | looked (nullify : Bool)
  /-- gave its reference back; the pointer was set to `NULL` or not -/
  | gave (null : Bool)
  deriving DecidableEq, Repr

structure CtxRefs where
  /-- `ctx->ref_count` -/
  refs : Nat
  /-- the thread that released the context -/
  releasedBy : Option Nat
  pc : Nat → UnrefPc

/-- `vortex_ctx_new` by thread 0. -/
def CtxRefs.init : CtxRefs := ⟨1, none, fun i => if i = 0 then .has else .without⟩

inductive UnrefAct
  /-- thread `i`, that has a reference, takes one for thread `j`: `vortex_ctx_ref2`, src/vortex_ctx.c:661-676 -/
  | ref (i j : Nat)
  /-- the next step of `vortex_ctx_unref` by thread `i` -/
  | go (i : Nat)
  deriving DecidableEq, Repr

def CtxRefs.at (s : CtxRefs) (i : Nat) (pc : UnrefPc) : CtxRefs := { s with pc := fun j => if j = i then pc else s.pc j }

/-- A step; `none` if the released context is used. -/
def CtxRefs.step (s : CtxRefs) : UnrefAct → Option CtxRefs
  | .ref i j =>
    match s.pc i, s.pc j with
    | .has, .without => if s.releasedBy.isSome then none else some ({ s with refs := s.refs + 1 }.at j .has)
    | _, _ => some s
  | .go i =>
    match s.pc i with
    -- src/vortex_ctx.c:738-752
    | .has => if s.releasedBy.isSome then none else some (s.at i (if s.refs = 0 then .gave true else .looked (s.refs == 1)))
    -- src/vortex_ctx.c:755-759, 778-805
    | .looked b =>
      if s.releasedBy.isSome then none
      else some ({ s with refs := s.refs - 1, releasedBy := if s.refs = 1 then some i else none }.at i (.gave b))
    | _ => some s

def CtxRefs.run (s : CtxRefs) : List UnrefAct → Option CtxRefs
  | [] => some s
  | a :: as =>
    match s.step a with
    | none => none
    | some r => r.run as

end Verif.Model
