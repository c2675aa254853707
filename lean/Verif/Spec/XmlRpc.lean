import Verif.Model.XmlRpc
/-!
# Vocabulary of C51 and C52
-/
namespace Verif.Spec
open Verif.Model

/-- Text that needs no quoting in XML. -/
def plainText (s : List Byte) : Prop := ∀ b ∈ s, b ≠ 60 ∧ b ≠ 38

/-- The end mark of CDATA sections does not occur. -/
def noCdataEnd (s : List Byte) : Prop := ¬ ∃ a b, s = a ++ lit "]]>" ++ b

/-- A C `int`. -/
def isInt (n : Int) : Prop := -2147483648 ≤ n ∧ n < 2147483648

mutual
/-- Values that arrive unchanged: no base64 value, no date, no empty struct; names need no quoting; strings are without
the end mark of CDATA sections. -/
def sendable : XVal → Prop
  | .int n => isInt n
  | .boolean n => isInt n
  | .double t => plainText t
  | .string s => noCdataEnd s
  | .base64 _ => False
  | .date => False
  | .none => True
  | .struct ms => ms ≠ [] ∧ sendableMembers ms
  | .array vs => sendableValues vs
  | .null => False

def sendableMembers : List (List Byte × XVal) → Prop
  | [] => True
  | m :: ms => sendableMember m ∧ sendableMembers ms

def sendableMember : List Byte × XVal → Prop
  | (name, v) => plainText name ∧ sendable v

def sendableValues : List XVal → Prop
  | [] => True
  | v :: vs => sendable v ∧ sendableValues vs
end

mutual
/-- Values an application can make with the functions of the library: integers are C integers, and there is no NULL
pointer inside. -/
def possible : XVal → Prop
  | .int n => isInt n
  | .boolean n => isInt n
  | .struct ms => possibleMembers ms
  | .array vs => possibleValues vs
  | .null => False
  | _ => True

def possibleMembers : List (List Byte × XVal) → Prop
  | [] => True
  | m :: ms => possibleMember m ∧ possibleMembers ms

def possibleMember : List Byte × XVal → Prop
  | (_, v) => possible v

def possibleValues : List XVal → Prop
  | [] => True
  | v :: vs => possible v ∧ possibleValues vs
end

end Verif.Spec
