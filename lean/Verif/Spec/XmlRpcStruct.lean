import Verif.Model.XmlRpcStruct
/-!
# Structs and signatures (C119)
-/
namespace Verif.Spec
open Verif.Model

/-- The name of a type of XML-RPC, as the checks use it. -/
def typeName : XsType → List Byte
  | .int => lit "int"
  | .boolean => lit "boolean"
  | .double => lit "double"
  | .string => lit "string"
  | .date => lit "date"
  | .base64 => lit "base64"
  | .struct => lit "struct"
  | .array => lit "array"
  | .none => lit "none"

/-- A value of type `x` can stand where the type named `t` is asked for: it has that type, or it is none where a struct or an array is asked for. -/
def HasType (t : List Byte) (x : XsType) : Prop := t = typeName x ∧ x ≠ .none ∨ x = .none ∧ (t = lit "struct" ∨ t = lit "array")

/-- Member by member, in order. -/
inductive AllTyped : List (List Byte) → List XsMember → Prop
  | nil : AllTyped [] []
  | cons {t : List Byte} {m : XsMember} {ts : List (List Byte)} {ms : List XsMember} : HasType t m.type → AllTyped ts ms → AllTyped (t :: ts) (m :: ms)

/-- A struct made with room for `count` members, to which these were added. -/
def structOf (count : Nat) (ms : List XsMember) : XsStruct := ms.foldl XsStruct.add (XsStruct.new count)

end Verif.Spec
