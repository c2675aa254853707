import Verif.Model.PyRefs
/-!
# Specification of the references of `vortex.Connection` objects (C141)
-/
namespace Verif.Spec
open Verif.Model

/-- Some Python object refers to the connection. -/
def PyrUsed (s : PyrState) (c : Nat) : Prop := ∃ x ∈ s.objs, x.conn = some c

/-- The connection exists and has not been freed. -/
def PyrAlive (s : PyrState) (c : Nat) : Prop := ∃ k, s.conns[c]? = some k ∧ k.refs ≠ 0

/-- The reader works with the connection. -/
def PyrWatched (s : PyrState) (c : Nat) : Prop := ∃ k, s.conns[c]? = some k ∧ k.engine = true

/-- What a program relies on: no freed memory is used, and a connection is kept
exactly as long as an object refers to it or the reader works with it. -/
def PyrExact (s : PyrState) : Prop :=
  s.bad = false ∧ ∀ c, c < s.conns.length → (PyrAlive s c ↔ PyrUsed s c ∨ PyrWatched s c)

/-- C141 in full. -/
def C141_statement : Prop := ∀ ops : List PyrOp, PyrExact (pyrRun ops)

/-- The object refers to a listener that was started, fell, and was not closed through another object. -/
def PyrFallenListener (s : PyrState) (o : Nat) : Prop :=
  ∃ x c k, s.objs[o]? = some x ∧ x.conn = some c ∧ s.conns[c]? = some k ∧
    k.role = .master ∧ k.ok = false ∧ k.owed = false ∧ k.closeCalled = false

/-- The object refers to an accepted connection, or to one closed already through another object. -/
def PyrLosing (s : PyrState) (o : Nat) : Prop :=
  ∃ x c k, s.objs[o]? = some x ∧ x.conn = some c ∧ s.conns[c]? = some k ∧
    (k.role = .listener ∨ k.role = .initiator ∧ k.closeCalled = true)

/-- `close` is not called on a listener that fell after it was started. -/
def PyrCareful (ops : List PyrOp) : Prop :=
  ∀ pre o agreed post, ops = pre ++ .close o agreed :: post → ¬ PyrFallenListener (pyrRun pre) o

/-- Neither on an accepted connection nor twice on one connection. -/
def PyrPolite (ops : List PyrOp) : Prop :=
  ∀ pre o agreed post, ops = pre ++ .close o agreed :: post → ¬ PyrLosing (pyrRun pre) o

/-- A listener that failed to start was closed. -/
def PyrSettled (s : PyrState) : Prop := ∀ k ∈ s.conns, k.owed = false

end Verif.Spec
