import Verif.Model.Environ
/-!
# Specification of environment variables (C158)
-/
namespace Verif.Spec
open Verif.Model

/-- The call is about the variable. -/
def EvrAbout (name : List Char) : EvrOp → Prop
  | .set n _ _ => n = some name
  | .unset n _ => n = some name

/-- No call is about the variable. -/
def EvrQuiet (name : List Char) (ops : List EvrOp) : Prop := ∀ o ∈ ops, ¬ EvrAbout name o

/-- Digits, and the number they write. -/
inductive EvrNatural : List Char → Nat → Prop
  | one (d : Char) : d.isDigit → EvrNatural [d] (d.toNat - 48)
  | more (t : List Char) (n : Nat) (d : Char) : EvrNatural t n → d.isDigit → EvrNatural (t ++ [d]) (10 * n + (d.toNat - 48))

/-- A text, and the number it writes. -/
inductive EvrNumber : List Char → Int → Prop
  | plain (t : List Char) (n : Nat) : EvrNatural t n → EvrNumber t n
  | plus (t : List Char) (n : Nat) : EvrNatural t n → EvrNumber ('+' :: t) n
  | minus (t : List Char) (n : Nat) : EvrNatural t n → EvrNumber ('-' :: t) (-n)

/-- C158 in full: the last call about a variable that was answered with true decides its value, a variable that was unset has none, other
variables keep theirs. -/
def C158_statement : Prop :=
  ∀ (t : EvrTable) (pre post : List EvrOp) (name : List Char) (mem : Bool), EvrQuiet name post →
    (∀ v, (evrStep (evrRun t pre) (.set (some name) (some v) mem)).1 = true →
      evrGet (evrRun t (pre ++ .set (some name) (some v) mem :: post)) name = some v) ∧
    ((evrStep (evrRun t pre) (.unset (some name) mem)).1 = true →
      evrGet (evrRun t (pre ++ .unset (some name) mem :: post)) name = none) ∧
    evrGet (evrRun t post) name = evrGet t name

end Verif.Spec
