import Verif.Model.External
/-!
# What a user of an external transport expects
-/
namespace Verif.Spec
open Verif.Model

/-- The references to setup object `s` the application has, if every connection and listener it creates takes one over: it gets one with
`vortex_external_setup_new` and each `vortex_external_setup_ref`. -/
def exHeld (s : Nat) : List (ExOp × List ExEvent) → Int
  | [] => 0
  | (op, ev) :: r => exHeld s r + (match op with
    | .newSetup => if ev = [.setup s] then 1 else 0
    | .ref i => if i = s ∧ ev = [] then 1 else 0
    | .unref i => if i = s ∧ ev = [] then -1 else 0
    | .connect _ i _ => if i = some s ∧ ev.any (fun e => match e with | .made _ => true | _ => false) then -1 else 0
    | .listen _ i => if i = some s ∧ ev.any (fun e => match e with | .made _ => true | _ => false) then -1 else 0
    | _ => 0)

/-- The setup object a call gives away, uses, or releases. -/
def exNeeds : ExOp → Option Nat
  | .ref s => some s
  | .unref s => some s
  | .flag s _ => some s
  | .host s _ => some s
  | .connect _ s _ => s
  | .listen _ s => s
  | _ => none

/-- The application only uses setup objects it has a reference of. -/
def exProper (ops : List ExOp) : Prop :=
  ∀ a op b s, ops = a ++ op :: b → exNeeds op = some s → 1 ≤ exHeld s (ExState.init.run a).2

/-- Connection `c` was created with setup object `s`. -/
def exUses (x : ExState) (c s : Nat) : Prop := ∃ q, x.conns[c]? = some q ∧ q.kind = .dialled ∧ q.setup = some s

/-- A call of a handler of connection `c` is in progress. -/
def exBusy (x : ExState) (c : Nat) : Prop := ∃ t, (⟨t, c⟩ : ExCall) ∈ x.calls

/-- The option for mutual exclusion is not changed during calls of handlers. -/
def exStable (ops : List ExOp) : Prop :=
  ∀ a s v b c, ops = a ++ .flag s v :: b → exUses (ExState.init.run a).1 c s → ¬ exBusy (ExState.init.run a).1 c

/-- Two threads are inside of handlers of the connection. -/
def exOverlap (x : ExState) (c : Nat) : Prop := ∃ t t', t ≠ t' ∧ (⟨t, c⟩ : ExCall) ∈ x.calls ∧ (⟨t', c⟩ : ExCall) ∈ x.calls

/-- Mutual exclusion is switched on in the setup object. -/
def exExclusive (x : ExState) (s : Nat) : Prop := ∃ p, x.setups[s]? = some p ∧ p.flag = true

/-- No listener is freed. -/
def exListenersStay (ops : List ExOp) : Prop :=
  ∀ a c b q, ops = a ++ .free c :: b → (ExState.init.run a).1.conns[c]? = some q → q.kind ≠ .listener

/-- The references to setup object `s` the application has, if connections take references of their own. -/
def exOwned (s : Nat) : List (ExOp × List ExEvent) → Int
  | [] => 0
  | (op, ev) :: r => exOwned s r + (match op with
    | .newSetup => if ev = [.setup s] then 1 else 0
    | .ref i => if i = s ∧ ev = [] then 1 else 0
    | .unref i => if i = s ∧ ev = [] then -1 else 0
    | _ => 0)

/-- The application only uses setup objects it has a reference of, if connections take references of their own. -/
def exOwner (ops : List ExOp) : Prop :=
  ∀ a op b s, ops = a ++ op :: b → exNeeds op = some s → 1 ≤ exOwned s (ExState.init.run a).2

/-- Connection `c` was created with setup object `s`, or accepted by a listener created with it. -/
def exCovered (x : ExState) (c s : Nat) : Prop :=
  exUses x c s ∨ ∃ q l w, x.conns[c]? = some q ∧ q.parent = some l ∧ x.conns[l]? = some w ∧ w.setup = some s

end Verif.Spec
