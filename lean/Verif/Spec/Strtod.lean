import Verif.Model.Strtod
/-!
# Specification of decimal numbers (C155)
-/
namespace Verif.Spec
open Verif.Model

/-- How a number is written: with a sign or not, and with point, comma or no separator. -/
inductive PstWritten : PstNumber → List Char → Prop
  | whole (sign : List Char) (n : PstNumber) : n.frac = [] → (sign = ['-'] ∧ n.neg = true ∨ (sign = [] ∨ sign = ['+']) ∧ n.neg = false) →
      PstWritten n (sign ++ n.int)
  | parts (sign : List Char) (n : PstNumber) (sep : Char) : (sep = '.' ∨ sep = ',') →
      (sign = ['-'] ∧ n.neg = true ∨ (sign = [] ∨ sign = ['+']) ∧ n.neg = false) → PstWritten n (sign ++ n.int ++ sep :: n.frac)

/-- Digits only, and some before the separator. -/
def PstProper (n : PstNumber) : Prop := n.int ≠ [] ∧ (∀ c ∈ n.int, c.isDigit = true) ∧ ∀ c ∈ n.frac, c.isDigit = true

/-- C155 in full: in both kinds of locale every number, written with point or comma, is read, and the text of the caller
stays as it is. -/
def C155_statement : Prop :=
  ∀ loc n t, (loc = '.' ∨ loc = ',') → PstProper n → PstWritten n t → pstRead loc t = (some n, t)

end Verif.Spec
