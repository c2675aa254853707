import Verif.Model.CInt
/-!
# XML-RPC values, calls and responses (xml-rpc/vortex_xml_rpc_types.c, xml-rpc/vortex_xml_rpc.c)

The octets of a call or a response are made by the functions of xml-rpc/vortex_xml_rpc_types.c. On the other side they
are read by the XML parser of the axl library, which is not part of /repo, and the tree it gives is walked by
xml-rpc/vortex_xml_rpc.c. `readXml` stands for axl: a reader for elements without attributes, text without entities
and CDATA sections.
-/
namespace Verif.Model

/-! ## Values -/

/-- `XmlRpcMethodValue`, xml-rpc/vortex_xml_rpc_types.c:148-177. A double is the text `%g` prints for it: the
conversion between numbers and text is not modelled. Strings are C strings, without zero octets. `null` is a NULL
pointer kept in an array. The counts of a struct or an array (`count`) are the number of members added. -/
inductive XVal
  | int (n : Int)
  | boolean (n : Int)
  | double (text : List Byte)
  | string (s : List Byte)
  | base64 (s : List Byte)
  | date
  | none
  | struct (members : List (List Byte × XVal))
  | array (values : List XVal)
  | null
  deriving Repr

/-- The last `k` decimal digits of a number, without leading zeros. -/
def printDigits : Nat → Nat → List Byte
  | 0, _ => []
  | k + 1, n => if n < 10 then [UInt8.ofNat (48 + n)] else printDigits k (n / 10) ++ [UInt8.ofNat (48 + n % 10)]

/-- The digits `%d` prints. -/
def printNat (n : Nat) : List Byte := printDigits (n + 1) n

/-- `printf ("%d", n)`. -/
def printInt (n : Int) : List Byte := if n < 0 then 45 :: printNat n.natAbs else printNat n.natAbs

/-- `printf ("%s", s)`; glibc prints `(null)` for a NULL pointer. -/
def printStr (s : Option (List Byte)) : List Byte := s.getD (lit "(null)")

mutual
/-- `vortex_xml_rpc_marshall_method_value`, xml-rpc/vortex_xml_rpc_types.c:1390-1451; `none` is NULL. -/
def XVal.marshal : XVal → Option (List Byte)
  | .int n => some (lit "<value><i4>" ++ printInt n ++ lit "</i4></value>")
  | .boolean n => some (lit "<value><boolean>" ++ printInt n ++ lit "</boolean></value>")
  | .double t => some (lit "<value><double>" ++ t ++ lit "</double></value>")
  | .string s => some (lit "<value><string><![CDATA[" ++ s ++ lit "]]></string></value>")
  | .date => Option.none
  | .base64 _ => Option.none
  | .struct ms => some (lit "<value>" ++ (lit "<struct>" ++ marshalMembers ms ++ lit "</struct>") ++ lit "</value>")
  | .array vs => some (lit "<value>" ++ (lit "<array><data>" ++ marshalValues vs ++ lit "</data></array>") ++ lit "</value>")
  | .none => some (lit "<value><none /></value>")
  | .null => Option.none

/-- The loop of `vortex_xml_rpc_types_marshall_struct`, xml-rpc/vortex_xml_rpc_types.c:1300-1320. -/
def marshalMembers : List (List Byte × XVal) → List Byte
  | [] => []
  | m :: ms => marshalMember m ++ marshalMembers ms

/-- One member, xml-rpc/vortex_xml_rpc_types.c:1303-1309. -/
def marshalMember : List Byte × XVal → List Byte
  | (name, v) => lit "<member><name>" ++ name ++ lit "</name>" ++ printStr v.marshal ++ lit "</member>"

/-- The loop of `vortex_xml_rpc_types_marshall_array`, xml-rpc/vortex_xml_rpc_types.c:1352-1371. -/
def marshalValues : List XVal → List Byte
  | [] => []
  | v :: vs => printStr v.marshal ++ marshalValues vs
end

/-- `XmlRpcMethodCall`, xml-rpc/vortex_xml_rpc_types.c:51-108: the parameters announced and those added. -/
structure XCall where
  name : List Byte
  count : Nat
  params : List XVal
  deriving Repr

/-- The loop over the parameters, xml-rpc/vortex_xml_rpc_types.c:1530-1547. -/
def marshalParams (params : List XVal) : List Byte :=
  params.flatMap fun v => lit "<param>" ++ printStr v.marshal ++ lit "</param>"

/-- `vortex_xml_rpc_method_call_marshall`, xml-rpc/vortex_xml_rpc_types.c:1498-1571; `none` is NULL. -/
def XCall.marshal (c : XCall) : Option (List Byte) :=
  if c.count ≠ c.params.length then none
  else some (lit "<?xml version=\"1.0\"?><methodCall><methodName>" ++ c.name ++ lit "</methodName>" ++
    (if 0 < c.count then lit "<params>" ++ marshalParams c.params ++ lit "</params>" else []) ++ lit "</methodCall>")

/-- `XmlRpcMethodResponse`, xml-rpc/vortex_xml_rpc_types.c:110-145. -/
inductive XResponse
  | ok (v : XVal)
  | fault (code : Int) (text : List Byte)
  deriving Repr

/-- `vortex_xml_rpc_method_response_marshall`, xml-rpc/vortex_xml_rpc_types.c:2146-2227; `none` is NULL. -/
def XResponse.marshal : XResponse → Option (List Byte)
  | .ok v =>
    let wrap (s : List Byte) : List Byte :=
      lit "<?xml version=\"1.0\"?><methodResponse><params><param>" ++ (lit "<value>" ++ s ++ lit "</value>") ++
        lit "</param></params></methodResponse>"
    match v with
    | .int n => some (wrap (lit "<i4>" ++ printInt n ++ lit "</i4>"))
    | .boolean n => some (wrap (lit "<boolean>" ++ printInt n ++ lit "</boolean>"))
    | .double t => some (wrap (lit "<double>" ++ t ++ lit "</double>"))
    | .string s => some (wrap (lit "<string><![CDATA[" ++ s ++ lit "]]></string>"))
    | .base64 s => some (wrap (lit "<base64>" ++ s ++ lit "</base64>"))
    | .struct ms => some (wrap (lit "<struct>" ++ marshalMembers ms ++ lit "</struct>"))
    | .array vs => some (wrap (lit "<array><data>" ++ marshalValues vs ++ lit "</data></array>"))
    | .date => none
    | .none => none
    | .null => none
  | .fault code text =>
    some (lit "<?xml version=\"1.0\"?><methodResponse><fault><value><struct><member><name>faultCode</name><value><int>" ++
      printInt code ++ lit "</int></value></member><member><name>faultString</name><value><string><![CDATA[" ++ text ++
      lit "]]></string></value></member></struct></value></fault></methodResponse>")

/-! ## The XML reader (axl) -/

/-- `axlNode`: name, content and elements inside. The content is what `axl_node_get_content` returns: the first piece of
text, empty if there is none. -/
inductive XNode
  | elem (name : List Byte) (content : List Byte) (kids : List XNode)
  deriving Repr

def XNode.name : XNode → List Byte
  | .elem n _ _ => n

def XNode.content : XNode → List Byte
  | .elem _ c _ => c

def XNode.kids : XNode → List XNode
  | .elem _ _ k => k

/-- A piece of what is inside an element. -/
inductive XPiece
  | text (s : List Byte)
  | node (n : XNode)
  deriving Repr

def XPiece.asText : XPiece → Option (List Byte)
  | .text s => some s
  | .node _ => none

def XPiece.asNode : XPiece → Option XNode
  | .text _ => none
  | .node n => some n

/-- An element with these pieces inside. -/
def XNode.make (name : List Byte) (inside : List XPiece) : XNode :=
  .elem name ((inside.filterMap XPiece.asText).head?.getD []) (inside.filterMap XPiece.asNode)

/-- What follows a prefix. -/
def after : List Byte → List Byte → Option (List Byte)
  | [], s => some s
  | _ :: _, [] => none
  | p :: ps, b :: s => if p = b then after ps s else none

/-- The octets before the first `]]>` and those after it. -/
def cdataEnd : List Byte → Option (List Byte × List Byte)
  | [] => none
  | b :: s =>
    match after (lit "]]>") (b :: s) with
    | some r => some ([], r)
    | none => (cdataEnd s).map fun x => (b :: x.1, x.2)

/-- Octets of element names: not blank, `/`, `<` or `>`. -/
def isNameChar (b : Byte) : Bool := b ≠ 32 && b ≠ 9 && b ≠ 10 && b ≠ 13 && b ≠ 47 && b ≠ 60 && b ≠ 62

/-- Pieces up to the end of the element or of the input, and what is left; `none`: not well formed, or outside of
the subset read here. -/
def readPieces : Nat → List Byte → Option (List XPiece × List Byte)
  | 0, _ => none
  | _ + 1, [] => some ([], [])
  | fuel + 1, b :: s =>
    if b ≠ 60 then
      let t := (b :: s).takeWhile (· ≠ 60)
      if t.contains 38 then none
      else (readPieces fuel ((b :: s).dropWhile (· ≠ 60))).map fun x => (.text t :: x.1, x.2)
    else
      match after (lit "![CDATA[") s with
      | some r =>
        match cdataEnd r with
        | none => none
        | some (t, r) => (readPieces fuel r).map fun x => (.text t :: x.1, x.2)
      | none =>
        match after (lit "/") s with
        | some _ => some ([], b :: s)
        | none =>
          let name := s.takeWhile isNameChar
          let r := s.dropWhile isNameChar
          if name = [] then none
          else
            match after (lit " />") r with
            | some r => (readPieces fuel r).map fun x => (.node (.elem name [] []) :: x.1, x.2)
            | none =>
              match after (lit ">") r with
              | none => none
              | some r =>
                match readPieces fuel r with
                | none => none
                | some (inside, r) =>
                  match after (lit "</" ++ name ++ lit ">") r with
                  | none => none
                  | some r => (readPieces fuel r).map fun x => (.node (.make name inside) :: x.1, x.2)

/-- `axl_doc_parse`: one element behind the XML declaration. -/
def readXml (s : List Byte) : Option XNode :=
  match after (lit "<?xml version=\"1.0\"?>") s with
  | none => none
  | some r =>
    match readPieces (r.length + 1) r with
    | some ([.node n], []) => some n
    | _ => none

/-! ## Reading values -/

/-- The value of a string of digits. -/
def scanDigits (ds : List Byte) : Option Int :=
  if ds.all (fun b => 48 ≤ b && b ≤ 57) then some (ds.foldl (fun a d => a * 10 + (d.toNat - 48)) 0 : Nat) else none

/-- `strtol (s, &end, 10)` converted to `int`, and `* end == 0`, for a string without leading blanks
(xml-rpc/vortex_xml_rpc_types.c:718-720); `none`: NULL is returned. -/
def scanInt : List Byte → Option Int
  | [] => some 0
  | b :: s =>
    if b = 45 ∧ s ≠ [] then (scanDigits s).map fun n => i32 (max (-n) (-9223372036854775808))
    else if b = 43 ∧ s ≠ [] then (scanDigits s).map fun n => i32 (min n 9223372036854775807)
    else (scanDigits (b :: s)).map fun n => i32 (min n 9223372036854775807)

mutual
/-- `__vortex_xml_rpc_parse_value`, xml-rpc/vortex_xml_rpc.c:377-473, with
`vortex_xml_rpc_method_value_new_from_string`, xml-rpc/vortex_xml_rpc_types.c:707-751; `none` is NULL. -/
def parseValue : XNode → Option XVal
  | .elem _ _ [] => none
  | .elem name _ (child :: _) => if name ≠ lit "value" then none else parseContent child

/-- The element inside of `<value>`. -/
def parseContent : XNode → Option XVal
  | .elem name content kids =>
    if name = lit "none" then some .none
    else if name = lit "i4" ∨ name = lit "int" then (scanInt content).map .int
    else if name = lit "boolean" then (scanInt content).map .boolean
    else if name = lit "string" then some (.string content)
    else if name = lit "double" then some (.double content)
    else if name = lit "dateTime.iso8601" then none
    else if name = lit "base64" then some (.base64 content)
    else if name = lit "struct" then
      match kids with
      | [] => none
      | m :: ms => some (.struct (parseMembers (m :: ms)))
    else if name = lit "array" then
      match kids with
      | [] => none
      | .elem n _ vs :: _ => if n ≠ lit "data" then none else some (.array (parseValues vs))
    else none

/-- The loop of `__vortex_xml_rpc_parse_struct_value`, xml-rpc/vortex_xml_rpc.c:261-282: a member without name or value
is not added (`vortex_xml_rpc_struct_member_new` and `_add_member` refuse NULL). -/
def parseMembers : List XNode → List (List Byte × XVal)
  | [] => []
  | .elem _ _ (nm :: v :: _) :: ms =>
    match parseValue v with
    | some v => (nm.content, v) :: parseMembers ms
    | none => parseMembers ms
  | .elem _ _ _ :: ms => parseMembers ms

/-- The loop of `__vortex_xml_rpc_parse_array_value`, xml-rpc/vortex_xml_rpc.c:337-355. -/
def parseValues : List XNode → List XVal
  | [] => []
  | v :: vs => (parseValue v).getD .null :: parseValues vs
end

/-- The value inside of a `<param>`, xml-rpc/vortex_xml_rpc.c:1682-1688. -/
def parseParam (p : XNode) : Option XVal := p.kids.head?.bind parseValue

/-- `__vortex_xml_rpc_frame_received_parse_method_call`, xml-rpc/vortex_xml_rpc.c:1624-1702: a parameter that cannot be
read is not added (`vortex_xml_rpc_method_call_add_value` refuses NULL). -/
def receiveCall (octets : List Byte) : Option XCall :=
  match readXml octets with
  | none => none
  | some root =>
    if root.name ≠ lit "methodCall" then none
    else
      match root.kids.find? (·.name = lit "methodName") with
      | none => none
      | some nm =>
        match root.kids.find? (·.name = lit "params") with
        | none => some ⟨nm.content, 0, []⟩
        | some ps => some ⟨nm.content, ps.kids.length, ps.kids.filterMap parseParam⟩

/-- What the caller is told. -/
inductive XReply
  | ok (v : XVal)
  | fault (code : Int) (text : List Byte)
  /-- status XML_RPC_BAD_REPLY_RECEIVED -/
  | bad
  /-- the notification gets a NULL response -/
  | null
  deriving Repr

/-- `vortex_xml_rpc_method_value_get_as_int`, xml-rpc/vortex_xml_rpc_types.c:1859-1867. -/
def XVal.asInt : XVal → Int
  | .int n => n
  | .boolean n => n
  | _ => -1

/-- `vortex_xml_rpc_method_value_get_as_string`, xml-rpc/vortex_xml_rpc_types.c:1878-1886. -/
def XVal.asString : XVal → Option (List Byte)
  | .string s => some s
  | _ => Option.none

/-- `__vortex_xml_rpc_invoke_process_reply`, xml-rpc/vortex_xml_rpc.c:1160-1301, with
`__vortex_xml_rpc_get_fault_values` (:1109-1140). -/
def receiveResponse (octets : List Byte) : XReply :=
  match readXml octets with
  | none => .bad
  | some root =>
    if root.name ≠ lit "methodResponse" then .bad
    else
      match root.kids with
      | [] => .bad
      | node :: _ =>
        if node.name = lit "fault" then
          match node.kids.head?.bind parseValue with
          | some (.struct ms) =>
            match (ms.find? (·.1 = lit "faultString")).bind (·.2.asString) with
            | none => .null
            | some text => .fault (((ms.find? (·.1 = lit "faultCode")).map (·.2.asInt)).getD (-1)) text
          | _ => .bad
        else if node.name = lit "params" then
          match node.kids.head?.bind parseParam with
          | some v => .ok v
          | none => .bad
        else .bad

/-! ## Services -/

/-- `VortexXmlRpcServiceDispatchNode`, xml-rpc/vortex_xml_rpc.c:61-80: whether its validation function accepts the
resource of the channel, and what its dispatch function returns for the call (`none`: NULL, the answer is deferred). -/
structure XService where
  accepts : Bool
  answer : Option XResponse
  deriving Repr

/-- The loop of `__vortex_xml_rpc_frame_received`, xml-rpc/vortex_xml_rpc.c:1746-1786: the services whose dispatch
function is called, by position, and the response; `i` is the position of the first service of the list. Both functions
are never NULL (:2254, :2272). -/
def handOver (i : Nat) : List XService → List Nat × Option XResponse
  | [] => ([], none)
  | s :: rest =>
    if s.accepts then ([i], s.answer)
    else
      match s.answer with
      | some r => ([i], some r)
      | none =>
        let x := handOver (i + 1) rest
        (i :: x.1, x.2)

/-- The decision of `__vortex_xml_rpc_start_msg`, xml-rpc/vortex_xml_rpc.c:1944-1964. -/
def bootAccepted : List XService → Bool
  | [] => false
  | s :: rest => s.accepts || bootAccepted rest

end Verif.Model
