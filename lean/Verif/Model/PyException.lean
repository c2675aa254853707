/-!
# Reports of exceptions of Python programs (C159)

`py_vortex_handle_and_clear_exception` (py-vortex/src/py_vortex.c:809-935).

Simplifications: what Python answers is given beforehand (whether an exception is set, whether the module `traceback` can be loaded, the
lines that `format_exception` gives); lines have no NUL; memory is always there; the text logged is taken as `printf` takes it, where a
`%` that is not followed by another one reads an argument that was not given.
-/
namespace Verif.Model

/-- What the call meets. -/
structure PexWorld where
  /-- `PyErr_Occurred`, :824 -/
  raised : Bool
  /-- `PyImport_ImportModule`, :834 -/
  module : Bool
  /-- `format_exception`, :858; `none`: it raises an exception itself, and the list is NULL -/
  lines : Option (List (List Char))
  /-- a handler is set, `py_vortex_exception_handler` -/
  handler : Bool
  /-- the log of the bindings is on -/
  log : Bool
  /-- the connection, if any: `true` if the program is the initiator -/
  conn : Option Bool
  deriving DecidableEq, Repr

/-- What the call does. -/
structure PexDone where
  found : Bool := false
  /-- text given to the handler -/
  told : Option (List Char) := none
  /-- text logged -/
  logged : Option (List Char) := none
  /-- text printed -/
  printed : Option (List Char) := none
  /-- memory that is not part of a text is written, or arguments that were not given are read -/
  bad : Bool := false
  /-- the connection is shut down -/
  shut : Bool := false
  deriving DecidableEq, Repr

/-- "PyVortex found exception inside: \n", :863. -/
def pexPrefix : List Char := "PyVortex found exception inside: \n".toList

/-- The loop that joins the lines, :864-874; `PyList_Size` of NULL is -1. -/
def pexJoin (str : List Char) : Option (List (List Char)) → List Char
  | none => str
  | some ls => ls.foldl (fun s l => s ++ l) str

/-- The loop that replaces `%`, :883-888. -/
def pexHash (str : List Char) : List Char := str.map fun c => if c = '%' then '#' else c

/-- Whether `printf` finds a directive that needs an argument. -/
def pexDirective : List Char → Bool
  | '%' :: '%' :: t => pexDirective t
  | '%' :: _ => true
  | _ :: t => pexDirective t
  | [] => false

/-- The report, :858-908. -/
def pexReport (w : PexWorld) : PexDone :=
  let str := pexJoin (if w.handler then [] else pexPrefix) w.lines
  if w.handler then
    -- :879: for the empty text the octet before it is written
    { found := true, told := some (pexHash str.dropLast), bad := str.isEmpty }
  else if w.log then
    -- :900-901: the text is the format
    { found := true, logged := some str.dropLast, bad := pexDirective str.dropLast }
  else { found := true, printed := some str }

/-- The call. -/
def pexHandle (w : PexWorld) : PexDone :=
  if w.raised then
    -- :835-840: `PyErr_Print` prints the failure of the import: the exception was fetched before
    let d := if w.module then pexReport w else { found := true }
    -- :922-926
    { d with shut := w.conn == some false }
  else {}

end Verif.Model
