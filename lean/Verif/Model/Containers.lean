/-!
# Error stack of a connection and VortexHash (src/vortex_connection.c, src/vortex_hash.c)

`axl_stack` is a stack and `axl_hash` a table with at most one entry per key; both are libaxl, not part of
the repository.
-/
namespace Verif.Model

/-! ## Error stack -/

/-- `VortexChannelError`: code and message. -/
structure ChanError where
  code : Int
  msg : String
  deriving DecidableEq, Repr

/-- `connection->pending_errors`, top first. -/
structure ErrorStack where
  items : List ChanError

/-- `vortex_connection_push_channel_error`, src/vortex_connection.c:3542-3579; `none` is a NULL message.
Allocation failure is not modelled. -/
def ErrorStack.push (s : ErrorStack) (code : Int) : Option String → ErrorStack
  | none => s
  | some msg => ⟨⟨code, msg⟩ :: s.items⟩

/-- `vortex_connection_pop_channel_error`, src/vortex_connection.c:3425-3470: return value, code, message. -/
def ErrorStack.pop (s : ErrorStack) : (Bool × Int × Option String) × ErrorStack :=
  match s.items with
  | [] => ((false, 0, none), s)
  | e :: es => ((true, e.code, some e.msg), ⟨es⟩)

/-- The part of `__vortex_connection_shutdown_and_record_error`, src/vortex_connection.c:3480-3527, that
touches the stack. `VortexOk` is 2, `VortexConnectionCloseCalled` 12 (src/vortex_types.h:520, :582). The text
built from the arguments is given. -/
def ErrorStack.record (s : ErrorStack) (status : Int) (text : String) : ErrorStack :=
  if status ≠ 2 ∧ status ≠ 12 then s.push status (some text) else s

/-! ## Hash -/

/-- An entry as inserted; its destroy handlers (`key_destroy`, `value_destroy`) run on both. -/
structure Entry (κ ν : Type) where
  key : κ
  value : ν
  deriving DecidableEq, Repr

/-- `struct _VortexHash`, src/vortex_hash.c (structure in src/vortex_types.h): table and reference counter. -/
structure HashTable (κ ν : Type) where
  table : List (Entry κ ν)
  refs : Nat

/-- `vortex_hash_new_full`, src/vortex_hash.c:95-119. -/
def HashTable.new {κ ν : Type} : HashTable κ ν := ⟨[], 1⟩

/-- `axl_hash_get`/the search of `axl_hash_remove_deferred` (libaxl). -/
def HashTable.find {κ ν : Type} [DecidableEq κ] (h : HashTable κ ν) (k : κ) : Option (Entry κ ν) :=
  h.table.find? (fun e => decide (e.key = k))

/-- Unlink the entry of a key (`axl_hash_delete`, `axl_hash_remove_deferred`, libaxl). -/
def HashTable.unlink {κ ν : Type} [DecidableEq κ] (h : HashTable κ ν) (k : κ) : HashTable κ ν :=
  { h with table := h.table.eraseP (fun e => decide (e.key = k)) }

/-- What the caller can see of a call. -/
inductive HashEvent (κ ν : Type)
  /-- destroy handlers called with this entry -/
  | destroyed (e : Entry κ ν)
  /-- the entry left the table without its handlers: its memory is the caller's again -/
  | released (e : Entry κ ν)
  | found (v : Option ν)
  | answer (b : Bool)
  | count (n : Nat)
  deriving DecidableEq, Repr

inductive HashOp (κ ν : Type)
  /-- `vortex_hash_insert` :179-210, `vortex_hash_replace` :222-254, `vortex_hash_replace_full` :270-303 -/
  | insert (k : κ) (v : ν)
  /-- `vortex_hash_remove` :492-523 -/
  | remove (k : κ)
  /-- `vortex_hash_delete` :582-601 -/
  | delete (k : κ)
  /-- `vortex_hash_lookup_and_clear` :397-424 -/
  | lookupAndClear (k : κ)
  /-- `vortex_hash_lookup` :339-354 -/
  | lookup (k : κ)
  /-- `vortex_hash_exists` :368-384 -/
  | exist (k : κ)
  /-- `vortex_hash_size` :312-326 -/
  | size
  /-- `vortex_hash_clear` :709-733 -/
  | clear
  /-- `vortex_hash_ref` :146-153 -/
  | ref
  /-- `vortex_hash_unref`, `vortex_hash_destroy` :161-167, :532-567 -/
  | unref
  deriving DecidableEq, Repr

/-- One call. The notification of changes (`__vortex_hash_notify_change`) is not modelled. Calls on a table
already freed are the caller's error; the model ignores them. -/
def HashTable.step {κ ν : Type} [DecidableEq κ] (h : HashTable κ ν) (op : HashOp κ ν) :
    List (HashEvent κ ν) × HashTable κ ν :=
  if h.refs = 0 then ([], h)
  else match op with
    | .insert k v =>
      -- axl_hash_remove_deferred, axl_hash_insert_full, axl_hash_deferred_cleanup
      let h' := h.unlink k
      ((h.find k).toList.map .destroyed, { h' with table := ⟨k, v⟩ :: h'.table })
    | .remove k => ((h.find k).toList.map .destroyed ++ [.answer (h.find k).isSome], h.unlink k)
    | .delete k => ((h.find k).toList.map .released ++ [.answer true], h.unlink k)
    | .lookupAndClear k =>
      ((h.find k).toList.map .released ++ [.found ((h.find k).map (·.value))], h.unlink k)
    | .lookup k => ([.found ((h.find k).map (·.value))], h)
    | .exist k => ([.answer (h.find k).isSome], h)
    | .size => ([.count h.table.length], h)
    | .clear => (h.table.map .destroyed, { h with table := [] })
    | .ref => ([], { h with refs := h.refs + 1 })
    | .unref =>
      if h.refs = 1 then (h.table.map .destroyed, ⟨[], 0⟩)
      else ([], { h with refs := h.refs - 1 })

/-- A history of calls. -/
def HashTable.run {κ ν : Type} [DecidableEq κ] (h : HashTable κ ν) :
    List (HashOp κ ν) → List (HashEvent κ ν) × HashTable κ ν
  | [] => ([], h)
  | op :: ops => ((h.step op).1 ++ ((h.step op).2.run ops).1, ((h.step op).2.run ops).2)

end Verif.Model
