import Verif.Model.PyEvents
/-!
# Specification of timed events of the Python bindings (C148)

The life of one event, told from the calls of the program and the results of its handler.
-/
namespace Verif.Spec
open Verif.Model

/-- What became of an event. -/
inductive PyeFate
  /-- not made yet -/
  | unborn
  /-- called when its time comes -/
  | installed
  /-- removed by `remove_event` -/
  | removed
  /-- its handler asked for its end or raised -/
  | ended
  /-- the context was finished -/
  | dropped
  /-- asked for after the context was finished -/
  | refused
deriving DecidableEq, Repr

/-- What is followed: calls of `new_event` so far, `exit` called, fate. -/
structure PyeLife where
  made : Nat
  over : Bool
  fate : PyeFate
deriving DecidableEq, Repr

/-- An action of the program, for event `k`. -/
def PyeSee (k : Nat) (l : PyeLife) : PyeAct → PyeLife
  | .new => ⟨l.made + 1, l.over, if l.made = k then (if l.over then .refused else .installed) else l.fate⟩
  | .remove j => ⟨l.made, l.over, if j = k ∧ l.fate = .installed then .removed else l.fate⟩

/-- One event of the history, for event `k`. -/
def PyeFollow (k : Nat) (l : PyeLife) : PyeOp → PyeLife
  | .act a => PyeSee k l a
  | .exit => ⟨l.made, true, if l.fate = .installed then .dropped else l.fate⟩
  | .fire j inner out =>
    let m := inner.foldl (PyeSee k) l
    if j = k ∧ l.fate = .installed ∧ (out = .yes ∨ out = .raised) then { m with fate := .ended } else m

/-- The fate of the event of the `k`-th `new_event` after a history. -/
def PyeFateOf (k : Nat) (ops : List PyeOp) : PyeFate := (ops.foldl (PyeFollow k) ⟨0, false, .unborn⟩).fate

/-- The bindings refer to the context because of event `k`. -/
def PyeRefers (s : PyeState) (k : Nat) : Prop := k ∈ s.held ∨ s.orphan = some k ∨ k ∈ s.tuples

/-- C148 in full: no released memory is used; an event is called when its time
comes exactly while it is installed; `remove_event` tells whether it removed
it; the bindings keep the context for installed events only. -/
def C148_statement : Prop :=
  ∀ ops, (pyeRun ops).bad = false ∧
    (∀ k out, (pyeRun (ops ++ [.fire k [] out])).calls = (pyeRun ops).calls ++ (if PyeFateOf k ops = .installed then [k] else [])) ∧
    (∀ k, ∃ b, (pyeRun (ops ++ [.act (.remove k)])).answers = (pyeRun ops).answers ++ [b] ∧ (b = true ↔ PyeFateOf k ops = .installed)) ∧
    (∀ k, PyeRefers (pyeRun ops) k ↔ PyeFateOf k ops = .installed)

end Verif.Spec
