import Verif.Model.CInt
/-!
# Memory of XML-RPC values (xml-rpc/vortex_xml_rpc_types.c)

Strings, values, structs, arrays and responses as objects that own others. An object is released when its last reference is given up;
only structs and arrays can have more than one. Members of structs are not told apart from their values, and doubles, dates and the string
kept by `vortex_xml_rpc_method_response_stringify` are left out.
-/
namespace Verif.Model

inductive XvKind
  | text
  | int
  /-- a string value -/
  | string
  | base64
  /-- `XML_RPC_NONE_VALUE` -/
  | none
  /-- a value that holds a struct -/
  | ofStruct
  /-- a value that holds an array -/
  | ofArray
  | struct
  | array
  | response
  deriving DecidableEq, Repr

/-- An object: `cap` is `count` of a struct or array, `kids` are the objects it owns. -/
structure XvObj where
  kind : XvKind
  refs : Nat
  cap : Nat
  kids : List Nat
  live : Bool
  deriving DecidableEq, Repr

structure XvState where
  heap : List XvObj := []
  /-- memory was used after it was released, or released twice, or NULL was used -/
  bad : Bool := false
  /-- the references that belong to the application, according to the documentation -/
  held : List Nat := []
  deriving DecidableEq, Repr

inductive XvOp
  /-- a string made by the application -/
  | text
  /-- `vortex_xml_rpc_method_value_new` with `XML_RPC_INT_VALUE` or `XML_RPC_BOOLEAN_VALUE` -/
  | intNew
  /-- … with `XML_RPC_STRING_VALUE` or (`true`) `XML_RPC_BASE64_VALUE` -/
  | stringNew (base64 : Bool)
  /-- … with `XML_RPC_STRING_REF_VALUE` or (`true`) `XML_RPC_BASE64_REF_VALUE` and this string -/
  | stringRef (base64 : Bool) (t : Nat)
  /-- … with `XML_RPC_STRUCT_VALUE` or `XML_RPC_ARRAY_VALUE` and this object -/
  | holdNew (c : Nat)
  /-- … with `XML_RPC_NONE_VALUE`, or with NULL as struct or array -/
  | noneNew
  /-- `vortex_xml_rpc_struct_new` -/
  | structNew (cap : Nat)
  /-- `vortex_xml_rpc_array_new` -/
  | arrayNew (cap : Nat)
  /-- `vortex_xml_rpc_struct_add_member` with `vortex_xml_rpc_struct_member_new`, or `vortex_xml_rpc_array_add` -/
  | add (c v : Nat)
  /-- `vortex_xml_rpc_struct_ref`, `vortex_xml_rpc_array_ref` -/
  | ref (c : Nat)
  /-- `vortex_xml_rpc_method_value_copy` -/
  | copy (v : Nat)
  /-- `vortex_xml_rpc_method_response_new` with `XML_RPC_OK` and this value -/
  | respond (v : Nat)
  /-- the application releases an object: `vortex_xml_rpc_method_value_free` and the like -/
  | free (o : Nat)
  /-- the application looks at an object -/
  | use (o : Nat)
  /-- `vortex_xml_rpc_struct_get_member_value_at`, `vortex_xml_rpc_struct_get_member_name_at` -/
  | memberAt (s i : Nat)
  /-- `vortex_xml_rpc_unmarshall_int_sync`, or a struct or array with a function to unmarshall it -/
  | unmarshall (r : Nat)
  /-- `vortex_xml_rpc_unmarshall_string_sync` -/
  | unmarshallString (r : Nat)
  /-- `vortex_xml_rpc_unmarshall_struct_sync`, `vortex_xml_rpc_unmarshall_array_sync`, without such a function -/
  | unmarshallPlain (r : Nat)
  deriving DecidableEq, Repr

/-- References given up, one after the other: `vortex_xml_rpc_method_value_free`, xml-rpc/vortex_xml_rpc_types.c:1789-1826,
`vortex_xml_rpc_struct_free`, :2912-2942, `vortex_xml_rpc_struct_member_free`, :2953-2968, `vortex_xml_rpc_array_free`, :3042-3064, and
`vortex_xml_rpc_method_response_free`, :2082-2099. The code goes into depth first, and releases an object after its parts. `n` bounds the
number of steps; what is left over is in the result. -/
def xvFree : Nat → List Nat → List XvObj → List XvObj × List Nat × Bool
  | 0, p, h => (h, p, false)
  | _ + 1, [], h => (h, [], false)
  | n + 1, o :: p, h =>
    match h[o]? with
    | none => (h, [], true)
    | some x =>
      if x.live = false then (h, [], true)
      else if x.kind ≠ .struct ∧ x.kind ≠ .array ∨ x.refs ≤ 1 then xvFree n (x.kids ++ p) (h.set o { x with refs := 0, kids := [], live := false })
      else xvFree n p (h.set o { x with refs := x.refs - 1 })

/-- All references of a heap. -/
def xvTotal : List XvObj → Nat
  | [] => 0
  | x :: h => x.refs + xvTotal h

def XvState.release (s : XvState) (o : Nat) : XvState :=
  let r := xvFree (xvTotal s.heap + 1) [o] s.heap
  { s with heap := r.1, bad := s.bad || r.2.2 }

/-- A new object with one reference, which belongs to the application. -/
def XvState.make (s : XvState) (k : XvKind) (cap : Nat) (kids : List Nat) : XvState :=
  { s with heap := s.heap ++ [⟨k, 1, cap, kids, true⟩], held := s.heap.length :: s.held }

/-- The object, if it can be used. -/
def XvState.obj (s : XvState) (o : Nat) : Option XvObj :=
  match s.heap[o]? with
  | none => none
  | some x => if x.live then some x else none

def XvState.broken (s : XvState) : XvState := { s with bad := true }

def XvState.step (s : XvState) : XvOp → XvState
  | .text => s.make .text 0 []
  -- `vortex_xml_rpc_method_value_new`, xml-rpc/vortex_xml_rpc_types.c:385-481
  | .intNew => s.make .int 0 []
  | .noneNew => s.make .none 0 []
  | .stringNew b =>
    let t := s.heap.length
    { s with heap := s.heap ++ [⟨.text, 1, 0, [], true⟩] ++ [⟨if b then .base64 else .string, 1, 0, [t], true⟩], held := (t + 1) :: s.held }
  | .stringRef b t => XvState.make { s with held := s.held.erase t } (if b then .base64 else .string) 0 [t]
  | .holdNew c =>
    match s.obj c with
    | none => s.broken
    | some x => XvState.make { s with held := s.held.erase c } (if x.kind = XvKind.struct then .ofStruct else .ofArray) 0 [c]
  -- `vortex_xml_rpc_struct_new`, :2355-2370; `vortex_xml_rpc_array_new`, :2994-3012
  | .structNew cap => if cap = 0 then s else s.make .struct cap []
  | .arrayNew cap => s.make .array cap []
  -- `vortex_xml_rpc_struct_add_member`, :2607-2621; `vortex_xml_rpc_array_add`, :3173-3185: both return nothing
  | .add c v =>
    match s.obj c with
    | none => s.broken
    | some x =>
      if x.kids.length < x.cap then { s with heap := s.heap.set c { x with kids := x.kids ++ [v] }, held := s.held.erase v }
      else { s with held := s.held.erase v }
  -- `vortex_xml_rpc_struct_ref`, :2380-2388; `vortex_xml_rpc_array_ref`, :3025-3033
  | .ref c =>
    match s.obj c with
    | none => s.broken
    | some x => { s with heap := s.heap.set c { x with refs := x.refs + 1 }, held := c :: s.held }
  -- `vortex_xml_rpc_method_value_copy`, :549-582
  | .copy v =>
    match s.obj v with
    | none => s.broken
    | some x =>
      if x.kind = .string ∨ x.kind = .base64 then
        let t := s.heap.length
        { s with heap := s.heap ++ [⟨.text, 1, 0, [], true⟩] ++ [⟨x.kind, 1, 0, [t], true⟩], held := (t + 1) :: s.held }
      else if x.kind = .ofStruct ∨ x.kind = .ofArray then
        match x.kids with
        | [c] =>
          match s.obj c with
          | none => s.broken
          | some y => XvState.make { s with heap := s.heap.set c { y with refs := y.refs + 1 } } x.kind 0 [c]
        | _ => s.make .none 0 []
      else s.make x.kind 0 []
  -- `vortex_xml_rpc_method_response_new`, :2011-2036
  | .respond v => XvState.make { s with held := s.held.erase v } .response 0 [v]
  | .free o => XvState.release { s with held := s.held.erase o } o
  | .use o =>
    match s.obj o with
    | none => s.broken
    | some _ => s
  -- `vortex_xml_rpc_struct_get_member_value_at`, :2695-2703; `vortex_xml_rpc_struct_get_member_name_at`, :2719-2727
  | .memberAt o i =>
    match s.obj o with
    | none => s.broken
    | some x => if x.cap ≤ i then s else if i < x.kids.length then s else s.broken
  -- `vortex_xml_rpc_unmarshall_int_sync`, xml-rpc/vortex_xml_rpc.c:2466-2482, and the others with a function, :2779-2813, 2907-2944
  | .unmarshall r => XvState.release { s with held := s.held.erase r } r
  -- `vortex_xml_rpc_unmarshall_string_sync`, :2565-2586, with `vortex_xml_rpc_method_value_get_as_string`,
  -- xml-rpc/vortex_xml_rpc_types.c:1878-1886, and `vortex_xml_rpc_method_value_nullify`, :643-680
  | .unmarshallString r =>
    match s.obj r with
    | none => s.broken
    | some x =>
      match x.kids with
      | [v] =>
        match s.obj v with
        | none => s.broken
        | some y =>
          let heap := s.heap.set v { y with kids := [] }
          if y.kind = .string then XvState.release { s with heap := heap, held := y.kids ++ s.held.erase r } r
          else XvState.release { s with heap := heap, held := s.held.erase r } r
      | _ => XvState.release { s with held := s.held.erase r } r
  -- `vortex_xml_rpc_unmarshall_struct_sync`, xml-rpc/vortex_xml_rpc.c:2779-2813, `vortex_xml_rpc_unmarshall_array_sync`, :2907-2944, with
  -- NULL as function: the struct or array of the value is returned
  | .unmarshallPlain r =>
    match s.obj r with
    | none => s.broken
    | some x =>
      match x.kids with
      | [v] =>
        match s.obj v with
        | none => s.broken
        | some y =>
          if y.kind = .ofStruct ∨ y.kind = .ofArray then XvState.release { s with held := y.kids ++ s.held.erase r } r
          else XvState.release { s with held := s.held.erase r } r
      | _ => XvState.release { s with held := s.held.erase r } r

def xvRun (ops : List XvOp) : XvState := ops.foldl XvState.step {}

end Verif.Model
