import Verif.Model.CInt
/-!
# The conversions of structs and arrays written by the interface compiler (xml-rpc-gen/xml-rpc-c-stub.c)

What the generated functions `…_marshall`, `…_unmarshall` and `…_free` of the structs and arrays of an interface do. Types are trees: a struct is the chain of its members.
Simplified: the values are trees (no struct is shared, none contains itself); doubles are numbers that cross unchanged; the text between the two sides is left out, and so are
XML-RPC structs with fewer members than announced.
-/
namespace Verif.Model

/-- A type of the interface; `nil` and `member` make the chain of members of a struct. -/
inductive GvType
  | int
  | bool
  | double
  | string
  | base64
  | array (t : GvType)
  | struct (ms : GvType)
  | nil
  | member (name : List Byte) (t rest : GvType)
  deriving DecidableEq, Repr

/-- A value in C: a number (int, bool, double), a string or NULL, a NULL pointer, a pointer to a struct or an array; `nil` and `cons` make the fields of a struct and the items of
an array. -/
inductive GvValue
  | num (n : Int)
  | text (s : Option (List Byte))
  | null
  | ptr (v : GvValue)
  | nil
  | cons (v rest : GvValue)
  deriving DecidableEq, Repr

/-- `XmlRpcMethodValue`; `nil`, `member` and `item` make the members of a struct and the items of an array. -/
inductive GvWire
  | int (n : Int)
  | boolean (n : Int)
  | double (n : Int)
  | string (s : List Byte)
  | base64 (s : List Byte)
  | none
  | struct (ms : GvWire)
  | array (l : GvWire)
  | nil
  | member (name : List Byte) (w rest : GvWire)
  | item (w rest : GvWire)
  deriving DecidableEq, Repr

/-- The loop of `…_marshall` of an array (xml-rpc-gen/xml-rpc-c-stub.c:1330-1401), with the conversion of one item. -/
def gvItemsTo (f : GvValue → Option GvWire) : GvValue → Option GvWire
  | .nil => some .nil
  | .cons v r =>
    match f v, gvItemsTo f r with
    | some w, some ws => some (.item w ws)
    | _, _ => none
  | _ => none

/-- The types whose arrays have a `…_marshall` in C: for base64 no value is written (xml-rpc-gen/xml-rpc-c-stub.c:1383-1394), for an array the format has no arguments (:1365). -/
def gvElement : GvType → Bool
  | .base64 => false
  | .array _ => false
  | _ => true

/-- The value made of a parameter, a member or an item: `method_value_new` (xml-rpc/vortex_xml_rpc_types.c:385-481) as it is called by `…_marshall` of structs
(xml-rpc-gen/xml-rpc-c-stub.c:782-850) and arrays (:1298-1413). A NULL string is an empty one, a NULL struct or array is none. `none`: there is no such function in C; a struct with a
member of type base64 has none because its `…_new` has a parameter of a type that does not exist (:941-955). -/
def gvTo : GvType → GvValue → Option GvWire
  | .int, .num n => some (.int n)
  | .bool, .num n => some (.boolean n)
  | .double, .num n => some (.double n)
  | .string, .text s => some (.string (s.getD []))
  | .struct _, .null => some .none
  | .struct ms, .ptr v => (gvTo ms v).map .struct
  | .array t, .null => if gvElement t then some .none else none
  | .array t, .ptr v => if gvElement t then (gvItemsTo (gvTo t) v).map .array else none
  | .nil, .nil => some .nil
  | .member n t rest, .cons v r =>
    match gvTo t v, gvTo rest r with
    | some w, some ws => some (.member n w ws)
    | _, _ => none
  | _, _ => none

/-- `__vortex_xml_rpc_struct_get_member_by_name` (xml-rpc/vortex_xml_rpc_types.c:2628-2655): the first of that name. -/
def gvFind (name : List Byte) : GvWire → Option GvWire
  | .member n w r => if n = name then some w else gvFind name r
  | _ => none

/-- One type of `vortex_xml_rpc_struct_check_member_types` (xml-rpc/vortex_xml_rpc_types.c:2484-2517) for the word that is written (`xml_rpc_c_stub_write_struct_checkings`,
xml-rpc-gen/xml-rpc-c-stub.c:585-600): `bool` is no word it knows. -/
def gvTypeOk : GvType → GvWire → Bool
  | .int, .int _ => true
  | .int, _ => false
  | .double, .double _ => true
  | .double, _ => false
  | .string, .string _ => true
  | .string, _ => false
  | .base64, .base64 _ => true
  | .base64, _ => false
  | .struct _, .struct _ => true
  | .struct _, .none => true
  | .struct _, _ => false
  | .array _, .array _ => true
  | .array _, .none => true
  | .array _, _ => false
  | _, _ => true

/-- The checks of `…_unmarshall` of a struct (xml-rpc-gen/xml-rpc-c-stub.c:556-603): the number of members, their names and their types, in order. -/
def gvCheck : GvType → GvWire → Bool
  | .nil, .nil => true
  | .member n t rest, .member m w r => decide (n = m) && gvTypeOk t w && gvCheck rest r
  | _, _ => false

/-- `vortex_xml_rpc_method_value_get_as_int` (xml-rpc/vortex_xml_rpc_types.c:1859-1867). -/
def gvAsInt : GvWire → GvValue
  | .int n => .num n
  | .boolean n => .num n
  | _ => .num (-1)

/-- The loop of `…_unmarshall` of an array (xml-rpc-gen/xml-rpc-c-stub.c:1456-1498), with the conversion of one item. -/
def gvItemsFrom (f : GvWire → GvValue) : GvWire → GvValue
  | .item w r => .cons (f w) (gvItemsFrom f r)
  | _ => .nil

/-- How the items of an array are read (xml-rpc-gen/xml-rpc-c-stub.c:1466-1484): doubles as integers. -/
def gvItem (t : GvType) (f : GvWire → GvValue) : GvWire → GvValue :=
  match t with
  | .double => gvAsInt
  | _ => f

/-- The value in C: the functions that read members (xml-rpc/vortex_xml_rpc_types.c:1859-1990, 2760-2890) as they are called by `…_unmarshall` of structs
(xml-rpc-gen/xml-rpc-c-stub.c:857-925) and arrays (:1415-1508). For a chain of members the second argument is the whole struct; a member that is missing was excluded by the
checks. -/
def gvFrom : GvType → GvWire → GvValue
  | .int, w => gvAsInt w
  | .bool, w => gvAsInt w
  | .double, .double n => .num n
  | .double, _ => .num 0
  | .string, .string s => .text (some s)
  | .string, _ => .text none
  | .base64, .string s => .text (some s)
  | .base64, _ => .text none
  | .struct ms, .struct w => if gvCheck ms w then .ptr (gvFrom ms w) else .null
  | .struct _, _ => .null
  | .array t, .array w => .ptr (gvItemsFrom (gvItem t (gvFrom t)) w)
  | .array _, _ => .null
  | .nil, _ => .nil
  | .member n t rest, w => .cons (match gvFind n w with | some x => gvFrom t x | none => .null) (gvFrom rest w)

/-- The items that `f` counts. -/
def gvSum (f : GvWire → Nat) : GvWire → Nat
  | .item w r => f w + gvSum f r
  | _ => 0

/-- How many strings of the result of `…_unmarshall` are strings of the XML-RPC value, because they were not copied: those in arrays (xml-rpc-gen/xml-rpc-c-stub.c:1470-1471, 1486); members
of structs are copied (`…_new`, :986-989). `…_free` releases them (:1615-1616), and so does the release of the XML-RPC value. -/
def gvBorrowed : GvType → GvWire → Nat
  | .struct ms, .struct w => if gvCheck ms w then gvBorrowed ms w else 0
  | .array .string, .array w => gvSum (fun x => match x with | .string _ => 1 | _ => 0) w
  | .array t, .array w => gvSum (gvBorrowed t) w
  | .member n t rest, w => (match gvFind n w with | some x => gvBorrowed t x | none => 0) + gvBorrowed rest w
  | _, _ => 0

end Verif.Model
