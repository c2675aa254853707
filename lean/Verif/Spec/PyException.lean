import Verif.Model.PyException
/-!
# Specification of reports of exceptions of Python programs (C159)
-/
namespace Verif.Spec
open Verif.Model

/-- The text of the lines, which ends with one character more (the end of the line). -/
def PexText (lines : Option (List (List Char))) (text : List Char) : Prop :=
  ∃ ls c, lines = some ls ∧ ls.flatten = text ++ [c]

/-- The same text, except that each `%` is a `#`. -/
def PexSame (a b : List Char) : Prop :=
  a.length = b.length ∧ ∀ (i : Nat) (c : Char), a[i]? = some c → b[i]? = some (if c = '%' then '#' else c)

/-- C159 in full: whatever Python answers, an exception is reported, nothing else is touched, and the connection is shut down at the
listener side only. -/
def C159_statement : Prop :=
  ∀ w : PexWorld, w.raised = true →
    (pexHandle w).found = true ∧ (pexHandle w).bad = false ∧ ((pexHandle w).shut = true ↔ w.conn = some false) ∧
    ((pexHandle w).told.isSome ∨ (pexHandle w).logged.isSome ∨ (pexHandle w).printed.isSome)

end Verif.Spec
