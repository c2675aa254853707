import Verif.Model.GenCode
/-!
# Code in an interface file, and the code generated from it
-/
namespace Verif.Spec
open Verif.Model

/-- Text in which every closing brace (125) closes an opening one (123), and none stays open. -/
inductive GnBalanced : List Byte → Prop
  | nil : GnBalanced []
  | other (c : Byte) (r : List Byte) : c ≠ 123 → c ≠ 125 → GnBalanced r → GnBalanced (c :: r)
  | nested (a b : List Byte) : GnBalanced a → GnBalanced b → GnBalanced (123 :: (a ++ 125 :: b))

/-- A closing brace followed at once by a semicolon (59) is somewhere in the text. -/
def GnHasCloseSemi (code : List Byte) : Prop := ∃ a b, code = a ++ 125 :: 59 :: b

/-- The text without the semicolons that follow a closing brace at once; `after`: a closing brace is before it. -/
def gnWithout (after : Bool) : List Byte → List Byte
  | [] => []
  | c :: r => if after = true ∧ c = 59 then gnWithout false r else c :: gnWithout (c == 125) r

/-- The text with every percent sign (37) doubled. -/
def gnDoubled : List Byte → List Byte
  | [] => []
  | c :: r => if c = 37 then 37 :: 37 :: gnDoubled r else c :: gnDoubled r

/-- What follows the code of a service in the file: a semicolon directly behind the closing brace belongs to it. -/
def gnAfter : List Byte → List Byte
  | [] => []
  | c :: r => if c = 59 then r else c :: r

/-- The body of a C function with this code in it. -/
def gnFunction (code : List Byte) : List Byte := lit "\n{\n\t" ++ code ++ lit "\n}\n\n"

/-- The property: code of a service that is balanced is the code of its function, whatever follows it and in whichever format the interface is written; code included for the body is written there; a service without code returns some value; nothing crashes or loops. -/
def C135_statement : Prop :=
  (∀ code rest, GnBalanced code → (0 : Byte) ∉ code →
    gnBody (.idl (code ++ 125 :: rest)) = some (gnFunction code) ∧
    gnBody (.xdl code) = some (gnFunction code) ∧
    gnIncluded (.bodyInline (code ++ 125 :: rest)) = .text (code ++ [10])) ∧
  (∀ f, (0 : Byte) ∉ f → gnIncluded (.bodyFile (.content f)) = .text (f ++ [10]) ∧ gnIncluded (.headerFile (.content f)) = .text (f ++ [10])) ∧
  (∀ text, gnBody (.idl text) ≠ none) ∧
  (∀ f, gnIncluded (.bodyFile f) ≠ .forever) ∧
  (∀ t, gnDefault t ≠ [])

end Verif.Spec
