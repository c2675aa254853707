/-!
# Queues of the Lua bindings

Models `lua-vortex/src/lua-vortex-asyncqueue.c` 41-64 (collection), 80-106 (`push`), 108-146 (`pop`), 148-189 (`timedpop`) and
`lua-vortex-object.c` 52-101 (`lua_vortex_object_new_from_stack`), 109-144 (`lua_vortex_object_push`), 152-187 (`lua_vortex_object_unref`), with
the references kept in the metatable of the queue by `luaL_ref` and `luaL_unref` of Lua 5.1: released references form a list through the
table, which begins at index 0.

Simplified: one queue; a Lua value that is neither nil nor a boolean is a number; the queue of the library is a list (C31); between the
moment `pop` takes an item (without the lock of the state) and the moment it has the lock again, anything can happen: two steps.  No
other thread leaves values on the stack of the call.
-/
namespace Verif.Model

/-- A Lua value. -/
inductive LuqValue
  | nil
  | bool (b : Bool)
  | other (x : Nat)
deriving DecidableEq, Repr

/-- `object->type`, as far as the bindings tell types apart. -/
inductive LuqType
  | nil
  | bool
  | stored
deriving DecidableEq, Repr

/-- `LuaVortexObject`. -/
structure LuqItem where
  type : LuqType
  ref : Nat
deriving DecidableEq, Repr

/-- An element of the table, index 1 and above: a value, or the next reference released. -/
inductive LuqSlot
  | value (x : Nat)
  | free (next : Nat)
deriving DecidableEq, Repr

/-- What a call of `pop` or `timedpop` returns: a value, or what is left on top of the stack of the call: the queue, the timeout. -/
inductive LuqAnswer
  | value (v : LuqValue)
  | queue
  | timeout
deriving DecidableEq, Repr

/-- The table, its index 0, the queue of the library, calls that took an item and wait for the lock (`true`: of `timedpop`), answers, whether the queue was collected. -/
structure LuqState where
  slots : List LuqSlot
  first : Nat
  items : List LuqItem
  waiting : List (Bool × LuqItem)
  answers : List LuqAnswer
  gone : Bool
deriving DecidableEq, Repr

/-- What the program does. -/
inductive LuqOp
  /-- `queue:push (v)` -/
  | push (v : LuqValue)
  /-- a call of `pop` or `timedpop` takes an item -/
  | take (timed : Bool)
  /-- the `i`-th of the calls that wait for the lock returns -/
  | finish (i : Nat)
  /-- the queue is collected -/
  | gc
deriving DecidableEq, Repr

/-- `luaL_ref`: the reference, the table, its index 0. -/
def luqRef (slots : List LuqSlot) (first : Nat) (x : Nat) : Nat × List LuqSlot × Nat :=
  if first = 0 then (slots.length + 1, slots ++ [.value x], 0)
  else
    match slots[first - 1]? with
    | some (.free next) => (first, slots.set (first - 1) (.value x), next)
    | _ => (first, slots.set (first - 1) (.value x), 0)

/-- `lua_vortex_object_unref`, 152-187: `luaL_unref` for the types stored. -/
def luqUnref (slots : List LuqSlot) (first : Nat) (o : LuqItem) : List LuqSlot × Nat :=
  match o.type with
  | .stored => (slots.set (o.ref - 1) (.free first), o.ref)
  | _ => (slots, first)

/-- `lua_vortex_object_push`, 109-144, and the `return 1` after it: for a boolean nothing is pushed. -/
def luqAnswer (slots : List LuqSlot) (timed : Bool) (o : LuqItem) : LuqAnswer :=
  match o.type with
  | .nil => .value .nil
  | .bool => if timed then .timeout else .queue
  | .stored =>
    match slots[o.ref - 1]? with
    | some (.value x) => .value (.other x)
    -- a reference released: an integer of the table
    | _ => .value .nil

/-- The loop of `lua_vortex_asyncqueue_gc`, 50-57. -/
def luqDrain (slots : List LuqSlot) (first : Nat) : List LuqItem → List LuqSlot × Nat
  | [] => (slots, first)
  | o :: os =>
    match luqUnref slots first o with
    | (slots, first) => luqDrain slots first os

/-- One step. -/
def luqStep (s : LuqState) : LuqOp → LuqState
  | .push v =>
    if s.gone then s
    else
      match v with
      | .nil => { s with items := s.items ++ [⟨.nil, 0⟩] }
      | .bool _ => { s with items := s.items ++ [⟨.bool, 0⟩] }
      | .other x =>
        match luqRef s.slots s.first x with
        | (r, slots, first) => { s with slots := slots, first := first, items := s.items ++ [⟨.stored, r⟩] }
  | .take timed =>
    match s.items with
    | [] => s
    | o :: os => { s with items := os, waiting := s.waiting ++ [(timed, o)] }
  | .finish i =>
    match s.waiting[i]? with
    | none => s
    | some (timed, o) =>
      match luqUnref s.slots s.first o with
      | (slots, first) =>
        { s with slots := slots, first := first, waiting := s.waiting.eraseIdx i, answers := s.answers ++ [luqAnswer s.slots timed o] }
  | .gc =>
    -- calls that wait have the queue on their stack
    if s.gone ∨ s.waiting ≠ [] then s
    else
      match luqDrain s.slots s.first s.items with
      | (slots, first) => { s with slots := slots, first := first, items := [], gone := true }

/-- A run with a new queue. -/
def luqRun (ops : List LuqOp) : LuqState := ops.foldl luqStep ⟨[], 0, [], [], [], false⟩

end Verif.Model
