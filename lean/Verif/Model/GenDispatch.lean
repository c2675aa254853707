import Verif.Model.XmlRpcStruct
/-!
# The dispatcher and the client written by the interface compiler (xml-rpc-gen)

What the generated C code does: the calls its client functions make, the service its `service_dispatch` chooses, and the names of its files and functions. Not modelled:
the XML tree of the interface (its nodes are fields here), names that are no words of C, a struct or array that has the name of a type of C, the conversion of the values.
-/
namespace Verif.Model

/-- A `<service>` of the interface: `<name>`, `<method_name>`, `<resource>` and the `<type>` of each `<param>`. -/
structure GdService where
  name : List Byte
  method : Option (List Byte)
  resource : Option (List Byte)
  types : List (List Byte)
  deriving DecidableEq, Repr

/-- The interface: its name, its services in order and the names of the arrays and structs it declares. -/
structure GdInterface where
  component : List Byte
  services : List GdService
  arrays : List (List Byte)
  structs : List (List Byte)
  deriving DecidableEq, Repr

/-- The octets of `tolower` and `toupper` (`axl_stream_to_lower_copy`, `axl_stream_to_upper_copy`) in the C locale. -/
def gdCase (up : Bool) (b : Byte) : Byte :=
  if up then (if 97 ≤ b.toNat ∧ b.toNat ≤ 122 then b - 32 else b) else (if 65 ≤ b.toNat ∧ b.toNat ≤ 90 then b + 32 else b)

/-- `isalnum` in the C locale. -/
def gdAlnum (b : Byte) : Bool := decide (48 ≤ b.toNat ∧ b.toNat ≤ 57 ∨ 65 ≤ b.toNat ∧ b.toNat ≤ 90 ∨ 97 ≤ b.toNat ∧ b.toNat ≤ 122)

/-- `__xml_rpc_support_common_name` (xml-rpc-gen/xml-rpc-support.c:778-805); 95 is `_`. -/
def gdWord (up : Bool) (name : List Byte) : List Byte := name.map fun b => if gdAlnum (gdCase up b) then gdCase up b else 95

/-- `xml_rpc_support_get_function_type_prefix` (xml-rpc-gen/xml-rpc-support.c:881-919) and `xml_rpc_support_write_function_type_prefix`
(xml-rpc-gen/xml-rpc-c-stub.c:54-86). -/
def gdTypes (types : List (List Byte)) : List Byte := types.flatMap fun t => 95 :: gdWord false t

/-- The name, without its end, of the files of a service (xml-rpc-gen/xml-rpc-c-server.c:904-908, 941-945). -/
def gdFile (component : List Byte) (s : GdService) : List Byte := gdWord false component ++ 95 :: s.name ++ gdTypes s.types

/-- The word that keeps the header of a service from being read twice (xml-rpc-gen/xml-rpc-c-server.c:913-917). -/
def gdGuard (component : List Byte) (s : GdService) : List Byte := lit "__SERVER_" ++ gdWord true component ++ 95 :: gdWord true s.name ++ lit "_XML_RPC_H__"

/-- The services that are declared in `service_dispatch.c`: the headers are included in the order of the services
(`xml_rpc_write_c_server_include_services`, xml-rpc-gen/xml-rpc-c-server.c:50-100) and the preprocessor skips one whose word is defined. `defined`: the words so far; `n`: the
position of the first service. -/
def gdIncluded (component : List Byte) : List (List Byte) → Nat → List GdService → List Nat
  | _, _, [] => []
  | defined, n, s :: r =>
    if gdGuard component s ∈ defined then gdIncluded component defined (n + 1) r
    else n :: gdIncluded component (gdGuard component s :: defined) (n + 1) r

/-- The type of XML-RPC that the dispatcher asks for (xml-rpc-gen/xml-rpc-c-server.c:150-173); `none`: nothing is written. -/
def gdServer (i : GdInterface) (t : List Byte) : Option XsType :=
  if t = lit "int" then some .int
  else if t = lit "bool" then some .boolean
  else if t = lit "string" then some .string
  else if t = lit "base64" then some .base64
  else if t = lit "double" then some .double
  else if t ∈ i.arrays then some .array
  else if t ∈ i.structs then some .struct
  else none

/-- The type of XML-RPC of the value a client function makes of its parameter (`xml_rpc_support_write_method_create_values`, xml-rpc-gen/xml-rpc-c-stub.c:201-288); `none`:
the function is no C, because the parameter has a type that does not exist (`xml_rpc_support_write_function_parameters`, :95-148, writes any other word as it is, so
`base64`, too) or because no value is written. -/
def gdClient (i : GdInterface) (t : List Byte) : Option XsType :=
  if t ∈ i.structs then some .struct
  else if t ∈ i.arrays then some .array
  else if t = lit "string" then some .string
  else if t = lit "bool" then some .boolean
  else if t = lit "int" then some .int
  else if t = lit "double" then some .double
  else none

/-- The name in a call of the service (xml-rpc-gen/xml-rpc-c-server.c:137-147, xml-rpc-gen/xml-rpc-c-stub.c:2166-2176). -/
def gdMethod (s : GdService) : List Byte :=
  match s.method with
  | none => s.name
  | some m => m

/-- The values of a client function, one for each parameter. -/
def gdValues (i : GdInterface) : List (List Byte) → List Int → Option (List (Option (XsType × Int)))
  | [], [] => some []
  | t :: ts, v :: vs =>
    match gdClient i t, gdValues i ts vs with
    | some x, some r => some (some (x, v) :: r)
    | _, _ => none
  | _, _ => none

/-- The client function `__common_…` of a service (`xml_rpc_c_stub_write_service_body`, xml-rpc-gen/xml-rpc-c-stub.c:2100-2187): the call it makes of its arguments; `none`: no
such call, the function is no C or the number of arguments is wrong. -/
def gdCall (i : GdInterface) (s : GdService) (values : List Int) : Option XsCall :=
  match gdValues i s.types values with
  | none => none
  | some ps => some ⟨gdMethod s, ps⟩

/-- The test of a service (`__xml_rpc_c_server_service_dispach`, xml-rpc-gen/xml-rpc-c-server.c:102-196). -/
def gdTest (i : GdInterface) (s : GdService) (c : XsCall) : Bool := c.is (some (gdMethod s)) s.types.length (s.types.filterMap (gdServer i))

/-- The tests of the services chosen by `sel`, in order; the position of the first that holds. -/
def gdFirst (i : GdInterface) (sel : GdService → Bool) (c : XsCall) : Nat → List GdService → Option Nat
  | _, [] => none
  | n, s :: r => if sel s && gdTest i s c then some n else gdFirst i sel c (n + 1) r

/-- The resources the compiler finds, each once (xml-rpc-gen/xml-rpc-c-server.c:238-258), in the order of the services. -/
def gdResources : List GdService → List (List Byte)
  | [] => []
  | s :: r =>
    match s.resource with
    | none => gdResources r
    | some x => if x ∈ gdResources r then gdResources r else x :: gdResources r

/-- The services that are tested after the blocks of the resources `all`: those without the mark `service-handled` (xml-rpc-gen/xml-rpc-c-server.c:115-117, 288-289). -/
def gdLeft (all : List (List Byte)) (s : GdService) : Bool :=
  match s.resource with
  | none => true
  | some x => decide (x ∉ all)

/-- `service_dispatch` (`xml_rpc_write_c_server_default_service_dispath`, xml-rpc-gen/xml-rpc-c-server.c:208-342) on a channel of resource `on`: the position of the service that
is called, `none` for NULL. `order`: the resources in the order the hash gives them (:263-307); the services of a block are not tested after it (:115-117, 288-289). -/
def gdDispatch (i : GdInterface) (on : Option (List Byte)) (c : XsCall) : List (List Byte) → List (List Byte) → Option Nat
  | all, [] => gdFirst i (gdLeft all) c 0 i.services
  | all, r :: order => if on = some r then gdFirst i (fun s => decide (s.resource = some r)) c 0 i.services else gdDispatch i on c all order

/-- What becomes of a call. `undeclared`: the function is called without a declaration, so C takes its result for an int. -/
inductive GdOutcome
  | refused
  | runs (position : Nat)
  | undeclared (position : Nat)
  deriving DecidableEq, Repr

/-- The dispatcher as it is compiled: `service_dispatch.c` (`xml_rpc_c_server_create_services_dispatch_file`, xml-rpc-gen/xml-rpc-c-server.c:424-457). -/
def gdServe (i : GdInterface) (order : List (List Byte)) (on : Option (List Byte)) (c : XsCall) : GdOutcome :=
  match gdDispatch i on c order order with
  | none => .refused
  | some n => if n ∈ gdIncluded i.component [] 0 i.services then .runs n else .undeclared n

end Verif.Model
