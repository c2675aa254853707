import Verif.Model.GenValues
/-!
# A call through the code of the interface compiler, from the arguments to the result

The client function (xml-rpc-gen/xml-rpc-c-stub.c:2105-2290), the test of the dispatcher and the function that calls the service (xml-rpc-gen/xml-rpc-c-server.c:852-1182), and the functions that
read the reply (xml-rpc/vortex_xml_rpc.c:2332-2944). The conversions are those of `Verif.Model.GenValues`; which service a call reaches is `Verif.Model.GenDispatch`.
Simplified: the service is a function of its arguments; the two texts of XML between the sides are left out, and so are connections that end and calls that cannot be sent.
-/
namespace Verif.Model

/-- What the function of the service leaves: its result, `*fault_error` and `*fault_code`. -/
structure GrResult where
  value : GvValue
  fault : Option (List Byte)
  code : Int
  deriving DecidableEq, Repr

/-- What the server does with a call; `silent`: the handler returns NULL and no reply is sent (xml-rpc/vortex_xml_rpc.c:1789-1794). -/
inductive GrReply
  | silent
  | fault (code : Int) (text : List Byte)
  | ok (w : GvWire)
  deriving DecidableEq, Repr

/-- What the caller gets: the result, whether the status is `XML_RPC_OK`, the fault code and the fault string. -/
inductive GrSeen
  | waits
  | got (value : GvValue) (ok : Bool) (code : Int) (text : Option (List Byte))
  deriving DecidableEq, Repr

/-- The type the dispatcher asks for (xml-rpc-gen/xml-rpc-c-server.c:156-172). -/
def grKind : GvType → GvWire → Bool
  | .int, .int _ => true
  | .bool, .boolean _ => true
  | .double, .double _ => true
  | .string, .string _ => true
  | .base64, .base64 _ => true
  | .struct _, .struct _ => true
  | .array _, .array _ => true
  | _, _ => false

/-- The test of the dispatcher for the parameters: as many, of these types. -/
def grAsks : List GvType → List GvWire → Bool
  | [], [] => true
  | t :: ts, w :: ws => grKind t w && grAsks ts ws
  | _, _ => false

/-- Structs and arrays, read with their own functions. -/
def grPointer : GvType → Bool
  | .struct _ => true
  | .array _ => true
  | _ => false

/-- The arguments of the service (xml-rpc-gen/xml-rpc-c-server.c:561-660, 770-850); `none`: one of the structs and arrays is NULL, `unmarshall_failure`. -/
def grArguments : List GvType → List GvWire → Option (List GvValue)
  | t :: ts, w :: ws =>
    match grArguments ts ws with
    | none => none
    | some vs => if grPointer t && gvFrom t w == .null then none else some (gvFrom t w :: vs)
  | _, _ => some []

/-- NULL, for the types that are pointers (xml-rpc-gen/xml-rpc-c-server.c:1119-1133). -/
def grNull : GvValue → Bool
  | .null => true
  | .text none => true
  | _ => false

/-- The value of the reply (xml-rpc-gen/xml-rpc-c-server.c:1136-1169). -/
def grValue : GvType → GvValue → Option GvWire
  | .base64, .text (some s) => some (.base64 s)
  | t, v => gvTo t v

/-- The function that calls the service, behind the test (xml-rpc-gen/xml-rpc-c-server.c:1077-1169). `none`: it is no C. -/
def grServe (types : List GvType) (ret : GvType) (f : List GvValue → GrResult) (ws : List GvWire) : Option GrReply :=
  if grAsks types ws then
    match grArguments types ws with
    | none => some (.fault (-1) (lit "Found marshalling error. Unable to translate XML-RPC structures to native types"))
    | some vs =>
      match (f vs).fault with
      | some s => some (.fault (f vs).code s)
      | none =>
        if grNull (f vs).value then some (.fault (-2) (lit "Returned a NULL value from a service which returns a pointer type. This is not allowed."))
        else (grValue ret (f vs).value).map .ok
  else some .silent

/-- The values of the call (xml-rpc-gen/xml-rpc-c-stub.c:201-288). -/
def grValues : List GvType → List GvValue → Option (List GvWire)
  | [], [] => some []
  | t :: ts, v :: vs =>
    match gvTo t v, grValues ts vs with
    | some w, some ws => some (w :: ws)
    | _, _ => none
  | _, _ => none

/-- The result when there is no value: -1, 0 or NULL (xml-rpc/vortex_xml_rpc.c:2348, 2468, 2522, 2567, 2670, 2724, 2852, 2909). -/
def grNone : GvType → GvValue
  | .int => .num (-1)
  | .bool => .num (-1)
  | .double => .num 0
  | .string => .text none
  | .base64 => .text none
  | _ => .null

/-- The synchronous client turns the result of type bool with `== axl_true` (xml-rpc-gen/xml-rpc-c-stub.c:2234-2235). -/
def grTruth : GvType → GvValue → GvValue
  | .bool, .num n => if n = 1 then .num 1 else .num 0
  | _, v => v

/-- `vortex_xml_rpc_unmarshall_…_sync` for the type of the result (xml-rpc-gen/xml-rpc-c-stub.c:2041-2065; xml-rpc/vortex_xml_rpc.c:2387-2944). -/
def grSync (ret : GvType) : GrReply → GrSeen
  | .silent => .waits
  | .fault c s => .got (grTruth ret (grNone ret)) false c (some s)
  | .ok w => .got (grTruth ret (gvFrom ret w)) true (-1) (some (lit "No error reported"))

/-- The value the handler gets: for structs and arrays the XML-RPC value. -/
inductive GrGiven
  | value (v : GvValue)
  | wire (w : GvWire)
  | null
  deriving DecidableEq, Repr

/-- `vortex_xml_rpc_unmarshall_…` and the handler of the application (xml-rpc-gen/xml-rpc-c-stub.c:2067-2086; xml-rpc/vortex_xml_rpc.c:2332-2360): the value, the status, the code and the string; `none`: it is
not called. -/
def grAsync (ret : GvType) : GrReply → Option (GrGiven × Bool × Int × Option (List Byte))
  | .silent => none
  | .fault c s => some (if grPointer ret then .null else .value (grNone ret), false, c, some s)
  | .ok w =>
    some (match ret, w with
      | .struct _, .struct _ => .wire w
      | .struct _, _ => .null
      | .array _, .array _ => .wire w
      | .array _, _ => .null
      | t, w => .value (gvFrom t w), true, -1, none)

/-- A synchronous call of a client for a service with these types. `none`: one of the sides is no C. -/
def grCall (types : List GvType) (ret : GvType) (f : List GvValue → GrResult) (args : List GvValue) : Option GrSeen :=
  match grValues types args with
  | none => none
  | some ws => (grServe types ret f ws).map (grSync ret)

/-- An asynchronous call. -/
def grCallAsync (types : List GvType) (ret : GvType) (f : List GvValue → GrResult) (args : List GvValue) : Option (Option (GrGiven × Bool × Int × Option (List Byte))) :=
  match grValues types args with
  | none => none
  | some ws => (grServe types ret f ws).map (grAsync ret)

end Verif.Model
