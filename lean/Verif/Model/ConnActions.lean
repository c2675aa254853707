/-!
# Actions on new connections (src/vortex_connection.c)

`vortex_connection_set_connection_actions` and `vortex_connection_actions_notify`, called by any number of threads, and
by actions that run (the TLS negotiation made by an action notifies the connection it creates, tls/vortex_tls.c:1312).
Every notification is a frame: its calls of actions and their returns are interleaved with everything else, because the
mutex is released while an action runs (:5698, 5705). What an action does is a choice.

Simplification: `axl_list_add` with `axl_list_always_return_1` puts the new action at the end, as the manual of
`vortex_connection_set_connection_actions` says ("called in order as they were added").
-/
namespace Verif.Model

/-- `VortexConnectionStage`. -/
inductive NfStage
  | features
  | created
  deriving DecidableEq, Repr

/-- One call of `vortex_connection_actions_notify` (:5663-5745). -/
structure NfFrame where
  stage : NfStage
  /-- `conn`: NULL is `none` -/
  conn : Option Nat
  iterator : Nat
  /-- the action that runs, and its place in the list -/
  inside : Option Nat
  /-- what it called: the place of the action and the connection -/
  calls : List (Nat × Option Nat)
  /-- what it returned -/
  result : Option Bool
  deriving DecidableEq, Repr

structure Nf where
  /-- `ctx->connection_actions`: the stages; an action is named by its place -/
  actions : List NfStage
  /-- `vortex_connection_is_ok` -/
  ok : Nat → Bool
  frames : List NfFrame

def Nf.init : Nf := ⟨[], fun _ => true, []⟩

inductive NfOp
  | register (stage : NfStage)
  /-- a notification begins -/
  | notify (conn : Nat) (stage : NfStage)
  /-- notification `i` goes on, up to the next call of an action or its end -/
  | advance (i : Nat)
  /-- the action that notification `i` called returns -/
  | ret (i : Nat) (result : Int) (new : Option Nat)
  /-- a connection fails or is closed -/
  | breaks (conn : Nat)
  deriving DecidableEq, Repr

/-- The loop (:5686-5738), until an action has to be called or the list ends. -/
def nfFind (stage : NfStage) (actions : List NfStage) (iterator fuel : Nat) : Nat × Bool :=
  match fuel with
  | 0 => (iterator, false)
  | fuel + 1 =>
    match actions[iterator]? with
    | none => (iterator, false)
    | some s => if s = stage then (iterator, true) else nfFind stage actions (iterator + 1) fuel

def NfFrame.advance (f : NfFrame) (actions : List NfStage) : NfFrame :=
  match f.result, f.inside with
  | none, none =>
    match nfFind f.stage actions f.iterator (actions.length - f.iterator) with
    | (k, true) => { f with iterator := k, inside := some k, calls := f.calls ++ [(k, f.conn)] }
    | (k, false) => { f with iterator := k, result := some true }  -- :5743
  | _, _ => f

/-- After the action returned, :5707-5738. -/
def NfFrame.ret (f : NfFrame) (result : Int) (new : Option Nat) : NfFrame :=
  match f.inside with
  | none => f
  | some _ =>
    if result = -1 then { f with inside := none, result := some false }
    else if result = 0 then { f with inside := none, result := some true }
    else if result = 2 then { f with inside := none, conn := new, iterator := f.iterator + 1 }
    else { f with inside := none, iterator := f.iterator + 1 }

/-- The connections that are ok after the action of that frame returned: `__vortex_connection_shutdown_and_record_error`, :5709-5713. -/
def NfFrame.okAfter (f : NfFrame) (result : Int) (ok : Nat → Bool) : Nat → Bool :=
  match f.inside, f.conn with
  | some _, some c => if result = -1 then fun d => if d = c then false else ok d else ok
  | _, _ => ok

def Nf.step (s : Nf) : NfOp → Nf
  -- :6117-6143
  | .register stage => { s with actions := s.actions ++ [stage] }
  -- :5675-5678
  | .notify conn stage =>
    { s with frames := s.frames ++ [⟨stage, some conn, 0, none, [], if s.ok conn then none else some false⟩] }
  | .advance i => { s with frames := s.frames.modify i (·.advance s.actions) }
  | .ret i result new =>
    match s.frames[i]? with
    | some f => { s with frames := s.frames.modify i (·.ret result new), ok := f.okAfter result s.ok }
    | none => s
  | .breaks conn => { s with ok := fun d => if d = conn then false else s.ok d }

def Nf.run (s : Nf) (ops : List NfOp) : Nf := ops.foldl Nf.step s

end Verif.Model
