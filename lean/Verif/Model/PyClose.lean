/-!
# Close handlers of the Python bindings

Models `py-vortex/src/py_vortex_connection.c` 755-911 (`set_on_close`,
`remove_on_close` and the function called by the library), `py_vortex_handle.c`
(the object returned by `set_on_close`) and the list of close handlers of
`src/vortex_connection.c` 5053-5120, 6769-6888.

Simplified: Python objects are numbers; the three references held by an
installed handler (connection, function, data) are held and dropped together,
so one flag per installation stands for them; every call of `close` succeeds;
a handler runs at once when the connection falls (the library starts one thread
for each, in the order of the list); the context is not finishing.
-/
namespace Verif.Model

/-- What a Python program and the network do.  Objects `vortex.Connection` are
numbered; `link w` (see `pycStep`) is the connection wrapped by object `w`. -/
inductive PycOp
  /-- `w.set_on_close (fn, data)`, `py_vortex_connection.c` 815-863 -/
  | set (w fn data : Nat)
  /-- `w.remove_on_close (handle)` with the handle returned by the `k`-th `set`, 866-911 -/
  | remove (w k : Nat)
  /-- the connection falls, `src/vortex_connection.c` 5790-5832 -/
  | lost (c : Nat)
  /-- `w.close ()`, `py_vortex_connection.c` 297-352 -/
  | close (w : Nat)
deriving DecidableEq, Repr

/-- `PyVortexConnectionSetOnCloseData`, `py_vortex_connection.c` 755-759; `freed`
once `axl_free` ran. -/
structure PycObj where
  w : Nat
  fn : Nat
  data : Nat
  freed : Bool
deriving DecidableEq, Repr

/-- The state: objects `on_close_obj` allocated, the pointer inside each
`vortex.Handle` (`py_vortex_handle.c` 42-53), the lists `on_close_full` of the
connections, the wrappers whose `conn` is NULL, the connections that fell, the
calls made to Python (object, wrapper, function, data), the results of
`remove_on_close`, and whether freed memory was used. -/
structure PycState where
  objs : List PycObj
  handles : List (Option Nat)
  regs : List (Nat × Nat)
  closed : List Nat
  down : List Nat
  calls : List (Nat × Nat × Nat × Nat)
  results : List Bool
  bad : Bool
deriving DecidableEq, Repr

/-- Nothing installed. -/
def pycInit : PycState := ⟨[], [], [], [], [], [], [], false⟩

/-- Drops the references and frees, `py_vortex_connection.c` 803-808 and 894-899. -/
def pycFree (s : PycState) (k : Nat) : PycState :=
  match s.objs[k]? with
  | none => { s with bad := true }
  | some o => if o.freed then { s with bad := true } else { s with objs := s.objs.set k { o with freed := true } }

/-- `py_vortex_connection_set_on_close_handler`, `py_vortex_connection.c` 761-813:
calls the function with the connection and the data, then frees. -/
def pycCall (s : PycState) (k : Nat) : PycState :=
  match s.objs[k]? with
  | none => { s with bad := true }
  | some o =>
    if o.freed then { s with bad := true }
    else pycFree { s with calls := s.calls ++ [(k, o.w, o.fn, o.data)] } k

/-- Handlers of connection `c` in the order of `on_close_full`. -/
def pycList (s : PycState) (c : Nat) : List Nat := (s.regs.filter (fun r => r.1 == c)).map (·.2)

/-- The connection stops being connected: once, `src/vortex_connection.c`
5790-5832, each handler is taken from the list and called, 5072-5092. -/
def pycDown (s : PycState) (c : Nat) : PycState :=
  if s.down.contains c then s
  else (pycList s c).foldl pycCall { s with down := s.down ++ [c], regs := s.regs.filter (fun r => r.1 != c) }

/-- One step. -/
def pycStep (link : Nat → Nat) (s : PycState) : PycOp → PycState
  | .set w fn data =>
    let s' := { s with objs := s.objs ++ [⟨w, fn, data, false⟩], handles := s.handles ++ [some s.objs.length] }
    -- src/vortex_connection.c 6780: a NULL connection installs nothing
    if s.closed.contains w then s' else { s' with regs := s.regs ++ [(link w, s.objs.length)] }
  | .remove w k =>
    match s.handles[k]? with
    | none => s
    | some none => { s with results := s.results ++ [false] }
    | some (some o) =>
      -- 881-888: the handle is emptied, then the handler is looked for in this connection
      let found := !s.closed.contains w && s.regs.contains (link w, o)
      let s' := { s with handles := s.handles.set k none,
                         regs := if found then s.regs.erase (link w, o) else s.regs,
                         results := s.results ++ [found] }
      -- 890-899: freed whatever the result
      pycFree s' o
  | .lost c => pycDown s c
  | .close w => if s.closed.contains w then s else { pycDown s (link w) with closed := s.closed ++ [w] }

/-- A run. -/
def pycRun (link : Nat → Nat) (ops : List PycOp) : PycState := ops.foldl (pycStep link) pycInit

end Verif.Model
