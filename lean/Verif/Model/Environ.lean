import Verif.Model.CInt
/-!
# Environment variables (C158)

`vortex_support_getenv_int`, `vortex_support_getenv`, `vortex_support_setenv` and `vortex_support_unsetenv`
(src/vortex_support.c:600-725), Unix flavour.

Simplifications: the environment is a table from names to values; `setenv` fails for names that are empty or have `=` in them, and when
there is no memory, which is given beforehand; `strtol` reads an optional sign and digits, leading blanks are left out. Calls of several
threads at once are not modelled (the C library does not allow them).
-/
namespace Verif.Model

/-- The environment of the process. -/
abbrev EvrTable := List Char → Option (List Char)

/-- A call that changes the environment; `none` stands for NULL, `mem`: there is memory. -/
inductive EvrOp
  | set (name value : Option (List Char)) (mem : Bool)
  | unset (name : Option (List Char)) (mem : Bool)
  deriving DecidableEq, Repr

/-- `setenv` of the system: whether it works, and the environment. -/
def evrSetenv (t : EvrTable) (name value : List Char) (mem : Bool) : Bool × EvrTable :=
  if name = [] ∨ '=' ∈ name ∨ mem = false then (false, t)
  else (true, fun n => if n = name then some value else t n)

/-- A call: its answer and the environment. -/
def evrStep (t : EvrTable) : EvrOp → Bool × EvrTable
  -- src/vortex_support.c:682-697
  | .set (some n) (some v) mem => evrSetenv t n v mem
  | .set _ _ _ => (false, t)
  -- :707-725: the variable is set to the empty text, and what `setenv` answers is ignored
  | .unset (some n) mem => (true, (evrSetenv t n [] mem).2)
  | .unset none _ => (false, t)

/-- The environment after calls. -/
def evrRun (t : EvrTable) (ops : List EvrOp) : EvrTable := ops.foldl (fun t o => (evrStep t o).2) t

/-- `vortex_support_getenv`, :643-654. -/
def evrGet (t : EvrTable) (name : List Char) : Option (List Char) := t name

/-- The digits at the start of a text as a number. -/
def evrDigits (t : List Char) : Nat := (t.takeWhile Char.isDigit).foldl (fun n c => n * 10 + (c.toNat - 48)) 0

/-- `strtol` with base 10, for a `long` of 64 bits: values out of range are replaced by the nearest one. -/
def evrStrtol : List Char → Int
  | '-' :: t => max (-9223372036854775808) (-(evrDigits t : Int))
  | '+' :: t => min 9223372036854775807 (evrDigits t : Int)
  | t => min 9223372036854775807 (evrDigits t : Int)

/-- `vortex_support_getenv_int`, :600-611. -/
def evrGetInt (t : EvrTable) (name : List Char) : Int :=
  match t name with
  | none => 0
  | some v => i32 (evrStrtol v)

end Verif.Model
