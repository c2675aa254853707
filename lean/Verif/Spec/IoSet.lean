import Verif.Model.IoSet
/-!
# Specification for waiting sets (C74, C75)
-/
namespace Verif.Spec
open Verif.Model

/-- What was added since the set was cleared for the last time, given what each use told. -/
def ioAdded : List (Nat × Nat) → List IoOp → List Bool → List (Nat × Nat)
  | _, .clear :: ops, _ :: told => ioAdded [] ops told
  | acc, .add _ _ _ fd c :: ops, ok :: told => ioAdded (if ok then acc ++ [(fd, c)] else acc) ops told
  | acc, _, _ => acc

/-- Of several entries for one descriptor, the first one. -/
def ioFirstByFd (l : List (Nat × Nat)) : List (Nat × Nat) :=
  l.foldl (fun acc i => if acc.any (·.1 == i.1) then acc else acc ++ [i]) []

/-- The limit that the system has at this use. -/
def ioLimitIs (limit : Option Nat) : IoOp → Prop
  | .add r _ _ _ _ => r = limit
  | .clear => True

/-- The limit, if known, is at most 2^30. -/
def ioLimitSmall : IoOp → Prop
  | .add (some r) _ _ _ _ => r ≤ 1073741824
  | _ => True

/-- The allocations succeed. -/
def ioMemory : IoOp → Prop
  | .add _ a b _ _ => a = true ∧ b = true
  | .clear => True

/-- What is of interest: data or urgent data to be read, or room to write. -/
def ioOfInterest (read : Bool) (r : IoReady) : Bool :=
  match read with
  | true => r.inp || r.pri
  | false => r.out

/-- How many descriptors the kernel reports: those with any event. -/
def ioChanged (l : List ((Nat × Nat) × IoReady)) : Nat := l.countP fun e => e.2.inp || e.2.pri || e.2.out || e.2.other

/-- How many descriptors `select` reports. -/
def selectChanged (listeners conns : List SelectItem) : Nat := listeners.countP (·.ready) + conns.countP (·.ready)

/-- The connections read, in order. -/
def selectRead : List SelectEvent → List Nat
  | [] => []
  | .process id :: l => id :: selectRead l
  | _ :: l => selectRead l

/-- The listeners served, in order, each with what was done. -/
def selectServed : List SelectEvent → List SelectEvent
  | [] => []
  | .accept id :: l => .accept id :: selectServed l
  | .preread id :: l => .preread id :: selectServed l
  | _ :: l => selectServed l

end Verif.Spec
