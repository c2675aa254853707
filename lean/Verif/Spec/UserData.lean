import Verif.Model.UserData
/-!
# What the application may expect of the data it stores (C112)

All of these read what happened, in order, not the state of the library.
-/
namespace Verif.Spec
open Verif.Model

/-- Storing `e` hands `i` over: the pointer of its key or of its value, with a destroy function. -/
def udGives (e : UdEntry) (i : UdItem) : Bool :=
  match i.kind with
  | .key => e.keyDestroy && decide (e.keyPtr = i.ptr)
  | .value => e.valueDestroy && decide (e.value = i.ptr)

/-- How often `i` was handed over with something stored. -/
def udStored : List UdEvent → UdItem → Nat
  | [], _ => 0
  | .done (.set e) _ :: l, i => (if udGives e i then 1 else 0) + udStored l i
  | _ :: l, i => udStored l i

/-- How often `i` was the key, with a destroy function, of a call that stores NULL. -/
def udKeysOfNull : List UdEvent → UdItem → Nat
  | [], _ => 0
  | .done (.unset _ p d) _ :: l, i => (if d && decide (i = ⟨.key, p⟩) then 1 else 0) + udKeysOfNull l i
  | _ :: l, i => udKeysOfNull l i

/-- How often a destroy function was called for `i`. -/
def udDestroyed (l : List UdEvent) (i : UdItem) : Nat := l.count (.destroyed i)

/-- How often `i` went back to the application (removed without destroy functions). -/
def udReturned (l : List UdEvent) (i : UdItem) : Nat := l.count (.returned i)

/-- What was stored last under `k` and not removed since. -/
def udLast : List UdEvent → Nat → Option UdEntry
  | l, k => l.foldl (fun r ev =>
      match ev with
      | .done (.set e) _ => if e.key = k then some e else r
      | .done (.unset k' _ _) _ => if k' = k then none else r
      | .done (.delete k') _ => if k' = k then none else r
      | _ => r) none

/-- All that happened, in order. -/
def udHappened (log : List (UdOp × List UdEvent)) : List UdEvent := log.flatMap (fun x => x.2)

/-- Thread `t` waits for the mutex. -/
def udWaits (s : UdState) (t : Nat) : Prop := ∃ c stack, s.stacks[t]? = some (.waiting c :: stack)

end Verif.Spec
