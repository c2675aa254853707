import Verif.Model.LuaQueue
/-!
# Specification of the queues of the Lua bindings (C145)
-/
namespace Verif.Spec
open Verif.Model

/-- A queue of Lua values: those not taken, those taken by calls that have not returned, and those returned; with each of the latter, whether the call was `timedpop`. -/
structure LuqIdeal where
  queue : List LuqValue
  taken : List (Bool × LuqValue)
  returned : List (Bool × LuqValue)
  gone : Bool

/-- How it works: first in, first out. -/
inductive LuqDoes : LuqIdeal → LuqOp → LuqIdeal → Prop
  | push (q t r) (v : LuqValue) : LuqDoes ⟨q, t, r, false⟩ (.push v) ⟨q ++ [v], t, r, false⟩
  | pushGone (q t r) (v : LuqValue) : LuqDoes ⟨q, t, r, true⟩ (.push v) ⟨q, t, r, true⟩
  | take (q t r g) (v : LuqValue) (timed : Bool) : LuqDoes ⟨v :: q, t, r, g⟩ (.take timed) ⟨q, t ++ [(timed, v)], r, g⟩
  | takeNone (t r g) (timed : Bool) : LuqDoes ⟨[], t, r, g⟩ (.take timed) ⟨[], t, r, g⟩
  | finish (q t r g) (i : Nat) (e : Bool × LuqValue) : t[i]? = some e → LuqDoes ⟨q, t, r, g⟩ (.finish i) ⟨q, t.eraseIdx i, r ++ [e], g⟩
  | finishNone (q t r g) (i : Nat) : t[i]? = none → LuqDoes ⟨q, t, r, g⟩ (.finish i) ⟨q, t, r, g⟩
  | gc (q r) : LuqDoes ⟨q, [], r, false⟩ .gc ⟨[], [], r, true⟩
  | gcUsed (q t r) : t ≠ [] → LuqDoes ⟨q, t, r, false⟩ .gc ⟨q, t, r, false⟩
  | gcGone (q t r) : LuqDoes ⟨q, t, r, true⟩ .gc ⟨q, t, r, true⟩

/-- The queue after a history. -/
inductive LuqHistory : List LuqOp → LuqIdeal → Prop
  | nil : LuqHistory [] ⟨[], [], [], false⟩
  | snoc (ops : List LuqOp) (op : LuqOp) (w w' : LuqIdeal) : LuqHistory ops w → LuqDoes w op w' → LuqHistory (ops ++ [op]) w'

/-- Values, other than nil and booleans, that are in the queue or in the hands of a call. -/
def LuqInside (w : LuqIdeal) : List Nat :=
  (w.queue ++ w.taken.map (·.2)).filterMap fun v => match v with
    | .other x => some x
    | _ => none

/-- Values that the table of references keeps from being collected. -/
def LuqKept (s : LuqState) : List Nat :=
  s.slots.filterMap fun x => match x with
    | .value x => some x
    | .free _ => none

/-- C145 in full: calls return the values pushed in their order, the number of items is right, and values are kept exactly while they are inside. -/
def C145_statement : Prop :=
  ∀ (ops : List LuqOp) (w : LuqIdeal), LuqHistory ops w →
    (luqRun ops).answers = w.returned.map (fun e => .value e.2) ∧
    (luqRun ops).items.length = w.queue.length ∧
    (LuqKept (luqRun ops)).Perm (LuqInside w)

/-- What the code returns instead of a boolean. -/
def LuqSeen : Bool × LuqValue → LuqAnswer
  | (true, .bool _) => .timeout
  | (false, .bool _) => .queue
  | (_, v) => .value v

/-- No boolean is pushed. -/
def LuqNoBooleans (ops : List LuqOp) : Prop := ∀ b, LuqOp.push (.bool b) ∉ ops

end Verif.Spec
