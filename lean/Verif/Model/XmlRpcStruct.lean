import Verif.Model.CInt
/-!
# XML-RPC structs and the signature of calls (xml-rpc/vortex_xml_rpc_types.c)

Values are numbers (which object it is) with a type. Names are C strings: lists of octets without NUL. Not modelled: NULL structs and names, variable argument lists
shorter than announced.
-/
namespace Verif.Model

/-- `XmlRpcParamType` (xml-rpc/vortex_xml_rpc_types.h:57-160) of a value that exists: the `_REF_` types are those of the values they make
(`vortex_xml_rpc_method_value_new`, :425-431). -/
inductive XsType
  | int
  | boolean
  | double
  | string
  | date
  | base64
  | struct
  | array
  | none
  deriving DecidableEq, Repr

/-- `XmlRpcStructMember` -/
structure XsMember where
  name : List Byte
  type : XsType
  value : Nat
  deriving DecidableEq, Repr

/-- `XmlRpcStruct`: room for `count` members, of which the first are there. -/
structure XsStruct where
  count : Nat
  members : List XsMember
  deriving DecidableEq, Repr

/-- What a call gives; `crash`: a NULL pointer is followed. -/
inductive XsResult (α : Type)
  | crash
  | gives (a : α)
  deriving DecidableEq, Repr

/-- `vortex_xml_rpc_struct_new` (:2354-2371) with a positive number. -/
def XsStruct.new (count : Nat) : XsStruct := ⟨count, []⟩

/-- `vortex_xml_rpc_struct_add_member` (:2605-2622). -/
def XsStruct.add (s : XsStruct) (m : XsMember) : XsStruct := if s.members.length < s.count then { s with members := s.members ++ [m] } else s

/-- `vortex_xml_rpc_struct_get_member_count` (:2399-2405). -/
def XsStruct.memberCount (s : XsStruct) : Nat := s.count

/-- The loop of `vortex_xml_rpc_struct_check_member_names` (:2430-2448) from position `i`, with the names that are left. -/
def XsStruct.namesFrom (s : XsStruct) : Nat → List (List Byte) → XsResult Bool
  | _, [] => .gives true
  | i, n :: r =>
    match s.members[i]? with
    | none => .crash
    | some m => if m.name = n then s.namesFrom (i + 1) r else .gives false

/-- `vortex_xml_rpc_struct_check_member_names` (:2418-2455); `names`: the arguments, `member_count` of them. -/
def XsStruct.checkNames (s : XsStruct) (names : List (List Byte)) : XsResult Bool :=
  if s.count = names.length then s.namesFrom 0 names else .gives false

/-- The conditions of the loop of `vortex_xml_rpc_struct_check_member_types` (:2487-2518): `error` is set. -/
def xsTypeError (t : List Byte) (x : XsType) : Bool :=
  (decide (t = lit "int") && decide (x ≠ .int)) || (decide (t = lit "boolean") && decide (x ≠ .boolean)) ||
  (decide (t = lit "string") && decide (x ≠ .string)) || (decide (t = lit "double") && decide (x ≠ .double)) ||
  (decide (t = lit "base64") && decide (x ≠ .base64)) || (decide (t = lit "date") && decide (x ≠ .date)) ||
  (decide (t = lit "struct") && decide (x ≠ .struct) && decide (x ≠ .none)) ||
  (decide (t = lit "array") && decide (x ≠ .array) && decide (x ≠ .none))

/-- The type names that make the loop look at the member at all (`&&` of C). -/
def xsTypeKnown (t : List Byte) : Bool :=
  [lit "int", lit "boolean", lit "string", lit "double", lit "base64", lit "date", lit "struct", lit "array"].contains t

/-- The loop of `vortex_xml_rpc_struct_check_member_types` (:2481-2530). -/
def XsStruct.typesFrom (s : XsStruct) : Nat → List (List Byte) → XsResult Bool
  | _, [] => .gives true
  | i, t :: r =>
    if !xsTypeKnown t then s.typesFrom (i + 1) r
    else
      match s.members[i]? with
      | none => .crash
      | some m => if xsTypeError t m.type then .gives false else s.typesFrom (i + 1) r

/-- `vortex_xml_rpc_struct_check_member_types` (:2467-2535). -/
def XsStruct.checkTypes (s : XsStruct) (types : List (List Byte)) : XsResult Bool :=
  if s.count = types.length then s.typesFrom 0 types else .gives false

/-- The loop of `__vortex_xml_rpc_struct_get_member_by_name` (:2628-2655). -/
def xsFind (name : List Byte) : List XsMember → Option XsMember
  | [] => none
  | m :: r => if m.name = name then some m else xsFind name r

/-- `vortex_xml_rpc_struct_get_member_value` (:2669-2682): NULL when there is none. -/
def XsStruct.getByName (s : XsStruct) (name : List Byte) : Option Nat := (xsFind name s.members).map XsMember.value

/-- `vortex_xml_rpc_struct_get_member_value_at` (:2695-2703), for any int. -/
def XsStruct.getAt (s : XsStruct) (position : Int) : XsResult (Option Nat) :=
  if 0 ≤ position ∧ position < s.count then
    match s.members[position.toNat]? with
    | none => .crash
    | some m => .gives (some m.value)
  else .gives none

/-- `vortex_xml_rpc_struct_get_member_name_at` (:2719-2727). -/
def XsStruct.nameAt (s : XsStruct) (position : Int) : XsResult (Option (List Byte)) :=
  if 0 ≤ position ∧ position < s.count then
    match s.members[position.toNat]? with
    | none => .crash
    | some m => .gives (some m.name)
  else .gives none

/-- A call that was received: its name and, for each place, the type and the `int_value` of the union of the value there (for a pointer: a part of the address). -/
structure XsCall where
  name : List Byte
  params : List (Option (XsType × Int))
  deriving DecidableEq, Repr

/-- The loop of `vortex_xml_rpc_method_call_is` (:1718-1739) from `iterator` on; `vortex_xml_rpc_method_call_get_param_value` (:1090-1099) gives NULL outside. -/
def XsCall.typesFrom (c : XsCall) : Nat → List XsType → Bool
  | _, [] => true
  | i, t :: r =>
    match c.params[i]?.getD none with
    | none => false
    | some v => if v.1 ≠ t then false else c.typesFrom (i + 1) r

/-- `vortex_xml_rpc_method_call_is` (:1689-1745); `types`: the arguments before the -1. -/
def XsCall.is (c : XsCall) (name : Option (List Byte)) (num : Int) (types : List XsType) : Bool :=
  if (match name with | some n => decide (c.name ≠ n) | none => false) then false
  else if num ≠ -1 ∧ num ≠ c.params.length then false
  else c.typesFrom 0 types

/-- `vortex_xml_rpc_method_call_get_param_value_as_int` (:1154-1171). -/
def XsCall.asInt (c : XsCall) (position : Int) : Int :=
  match (if 0 ≤ position then c.params[position.toNat]?.getD none else none) with
  | none => -1
  | some v => if v.1 ≠ .int ∧ v.1 = .double then -1 else v.2

end Verif.Model
