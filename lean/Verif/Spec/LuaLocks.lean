import Verif.Model.LuaLocks
/-!
# Specification of the locks of the Lua bindings (C149)
-/
namespace Verif.Spec
open Verif.Model

/-- Thread `t` runs Lua code or changes the Lua state. -/
def LlkRuns (s : LlkState) (t : Nat) : Prop := (∃ r, s.places t = .lua r) ∨ (∃ r, s.places t = .inner r) ∨ s.places t = .touch

/-- Thread `t` waits in a function that does not say that it keeps the lock. -/
def LlkRests (s : LlkState) (t : Nat) : Prop := s.places t = .out ∨ ∃ k r, k ≠ .events ∧ s.places t = .wait k r

/-- The thread of a step. -/
def LlkWho : LlkOp → Nat
  | .register t => t
  | .start t _ => t
  | .finish t => t
  | .pause t _ => t
  | .back t => t
  | .callback t => t
  | .callbackEnd t => t
  | .release t => t
  | .releaseEnd t => t

/-- C149 in full: at most one thread runs Lua code or changes the Lua state at any time; nobody releases
a lock of somebody else; when all threads rest, a handler that is due can be called. -/
def C149_statement : Prop :=
  ∀ ops s, llkRun llkInit ops = some s →
    (∀ t u, LlkRuns s t → LlkRuns s u → t = u) ∧ s.bad = false ∧
    ((∀ t, LlkRests s t) → ∀ t r, t ≠ 0 → s.places t = .out → r ∈ s.regs → ∃ s', llkRun llkInit (ops ++ [.start t r]) = some s')

/-- Steps of programs that keep to what works: handlers are given by thread 0,
`wait_listeners` is not used, thread 0 makes no pools with create handlers, nothing is released by the threads of the library. -/
def LlkPlain : LlkOp → Prop
  | .register t => t = 0
  | .pause _ k => k ≠ .listeners
  | .callback t => t ≠ 0
  | .release _ => False
  | _ => True

end Verif.Spec
