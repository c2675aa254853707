import Verif.Model.CInt
/-!
# The code of services in the compiler of XML-RPC interfaces

Models the way of the code an application writes for a service, from the interface file to the
generated C file: xml-rpc-gen/xml-rpc-gen-translate.c (`xml_rpc_gen_translate_copy_and_escape`,
`xml_rpc_gen_translate_invalid_chars`, `__get_all_user_content`,
`__get_all_user_content_from_file`, the parts of `__xml_rpc_gen_translate_service` that use them),
xml-rpc-gen/xml-rpc-c-server.c (`xml_rpc_c_server_create_write_service`) and
xml-rpc-gen/xml-rpc-support.c (`xml_rpc_support_write`).

The axl library is not in /repo. Its documented behaviour is assumed: `axl_stream_get_until` with
`accept_terminator` finds the first place where one of the chunks is, trying the chunks in the order
given, and gives the text before it (NULL if there is none); the content of a CDATA section is given
back as it was stored.
-/
namespace Verif.Model

/-- `{`, `}`, `;` and `%`. -/
def GN_OPEN : Byte := 123
def GN_CLOSE : Byte := 125
def GN_SEMI : Byte := 59
def GN_PCT : Byte := 37

/-- The chunk that ended a piece (`chunk_matched`, xml-rpc-gen/xml-rpc-gen-translate.c:404-405): 0, 1 and 2. -/
inductive GnMark
  | closeSemi | close | opened
  deriving DecidableEq, Repr

/-- `axl_stream_get_until` as called in xml-rpc-gen/xml-rpc-gen-translate.c:404-405 with `"};"`, `"}"`, `"{"`: the text before the first of them, which one it is, and what follows. -/
def gnCut : List Byte → Option (List Byte × GnMark × List Byte)
  | [] => none
  | c :: r =>
    if c = GN_CLOSE then
      match r with
      | [] => some ([], .close, [])
      | d :: r' => if d = GN_SEMI then some ([], .closeSemi, r') else some ([], .close, r)
    else if c = GN_OPEN then some ([], .opened, r)
    else (gnCut r).map fun x => (c :: x.1, x.2.1, x.2.2)

/-- `strlen` of the text: it ends at the first zero. -/
def gnStr (u : List Byte) : List Byte := u.takeWhile (· != NUL)

/-- `xml_rpc_gen_translate_invalid_chars` (xml-rpc-gen/xml-rpc-gen-translate.c:354-388): the number of octets to add; the result is whether it is not 0. -/
def gnAdded : List Byte → Nat
  | [] => 0
  | c :: r => (if c = GN_PCT then 1 else 0) + gnAdded r

/-- `xml_rpc_gen_translate_copy_and_escape` (xml-rpc-gen/xml-rpc-gen-translate.c:318-352) with a result of `room` octets of which `done` are written: none if it writes outside, or leaves no zero at the end (`axl_new` clears the memory). -/
def gnCopy (room : Nat) : List Byte → List Byte → Option (List Byte)
  | [], done => if done.length < room then some done else none
  | c :: r, done =>
    if c = GN_PCT then
      if done.length + 2 ≤ room then gnCopy room r (done ++ [GN_PCT, GN_PCT]) else none
    else
      if done.length + 1 ≤ room then gnCopy room r (done ++ [c]) else none

/-- One piece after the escape (xml-rpc-gen/xml-rpc-gen-translate.c:408-419). -/
def gnEscape (u : List Byte) : Option (List Byte) :=
  if gnAdded u = 0 then some u else gnCopy (u.length + gnAdded u + 1) u []

/-- The loop of `__get_all_user_content` (xml-rpc-gen/xml-rpc-gen-translate.c:390-461); `opened` is `parents_opened`, `done` is `user_code_complete`. None: `strlen (NULL)` at :411, or a write outside. The first argument bounds the rounds; every round takes at least one octet, so the length of the text plus one is enough. -/
def gnLoop : Nat → List Byte → Nat → List Byte → Option (List Byte × List Byte)
  | 0, _, _, _ => none
  | n + 1, s, opened, done =>
    match gnCut s with
    | none => none
    | some (u, m, r) =>
      match gnEscape (gnStr u) with
      | none => none
      | some e =>
        match m with
        | .opened => gnLoop n r (opened + 1) (done ++ e ++ [GN_OPEN])
        | _ => if opened = 0 then some (done ++ e, r) else gnLoop n r (opened - 1) (done ++ e ++ [GN_CLOSE])

/-- `__get_all_user_content` (xml-rpc-gen/xml-rpc-gen-translate.c:390-461) on what follows the opening brace: the code kept and the rest of the file. -/
def gnRead (s : List Byte) : Option (List Byte × List Byte) := gnLoop (s.length + 1) s 0 []

/-- `vfprintf` without arguments, as used by `xml_rpc_support_write (service_content)` (xml-rpc-gen/xml-rpc-c-server.c:993, xml-rpc-gen/xml-rpc-support.c:448-467): none if a conversion takes an argument that was not given, or is not a conversion, which is undefined. -/
def gnFormat : List Byte → Option (List Byte)
  | [] => some []
  | c :: r =>
    if c = GN_PCT then
      match r with
      | [] => none
      | d :: r' => if d = GN_PCT then (gnFormat r').map (GN_PCT :: ·) else none
    else (gnFormat r).map (c :: ·)

/-- Where the code of a service comes from: an interface file in the structured format (the text behind the opening brace; xml-rpc-gen/xml-rpc-gen-translate.c:648-668) or in XML (the content of the element). -/
inductive GnSource
  | idl (text : List Byte)
  | xdl (content : List Byte)
  deriving DecidableEq, Repr

/-- The content of the element `content` of a service. -/
def gnContent : GnSource → Option (List Byte)
  | .idl t => (gnRead t).map (·.1)
  | .xdl c => some (gnStr c)

/-- What is written as the body of the function of the service (xml-rpc-gen/xml-rpc-c-server.c:977-1018): the brace, one tab, the code as a format, the brace. -/
def gnBody (src : GnSource) : Option (List Byte) :=
  match gnContent src with
  | none => none
  | some c => (gnFormat c).map fun t => lit "\n{\n\t" ++ t ++ lit "\n}\n\n"

/-- The types a service can return (xml-rpc-gen/xml-rpc-c-server.c:1001-1012): the basic ones, and the structs and arrays of the interface, that are called by their name. -/
inductive GnType
  | int | double | bool | string | base64 | named (name : List Byte)
  deriving DecidableEq, Repr

/-- The word for a type in the interface (compared with `axl_cmp`). -/
def GnType.word : GnType → List Byte
  | .int => lit "int" | .double => lit "double" | .bool => lit "bool"
  | .string => lit "string" | .base64 => lit "base64" | .named n => n

/-- The value returned by the function written for a service without code (xml-rpc-gen/xml-rpc-c-server.c:1001-1012). -/
def gnDefault (t : GnType) : List Byte :=
  let w := t.word
  (if w = lit "int" ∨ w = lit "double" ∨ w = lit "bool" then lit "0" else []) ++
  (if w = lit "string" ∨ w = lit "struct" ∨ w = lit "array" ∨ w = lit "base64" then lit "NULL" else [])

/-- A file named in the options of a service: its content, or a directory, which can be opened but not read. -/
inductive GnFile
  | content (octets : List Byte)
  | directory
  deriving DecidableEq, Repr

/-- The end of a run: what was written, a crash, or a loop without end. -/
inductive GnEnd
  | text (t : List Byte) | crash | forever
  deriving DecidableEq, Repr

/-- The loop of `__get_all_user_content_from_file` (xml-rpc-gen/xml-rpc-gen-translate.c:477-490): blocks of 4095 octets, each one taken up to its first zero; the first argument bounds the rounds. -/
def gnBlocks : Nat → List Byte → List Byte
  | 0, _ => []
  | n + 1, f => gnStr (f.take 4095) ++ (if f.length < 4095 then [] else gnBlocks n (f.drop 4095))

/-- `__get_all_user_content_from_file` (xml-rpc-gen/xml-rpc-gen-translate.c:463-497): a directory gives an error and never the end of the file. -/
def gnFile : GnFile → GnEnd
  | .content f => .text (gnBlocks (f.length + 1) f)
  | .directory => .forever

/-- `include on body` and `include on header` in the options of a service (xml-rpc-gen/xml-rpc-gen-translate.c:675-817), with code or with a file. -/
inductive GnInclude
  | bodyInline (text : List Byte)
  | bodyFile (f : GnFile)
  | headerInline (text : List Byte)
  | headerFile (f : GnFile)
  deriving DecidableEq, Repr

/-- What is written for it: the body with `"%s\n"` (xml-rpc-gen/xml-rpc-c-server.c:957-972), the header nowhere (:900-937). -/
def gnIncluded : GnInclude → GnEnd
  | .bodyInline t =>
    match gnRead t with
    | none => .crash
    | some (c, _) => .text (c ++ [LF])
  | .bodyFile f =>
    match gnFile f with
    | .text t => .text (t ++ [LF])
    | e => e
  | .headerInline t =>
    match gnRead t with
    | none => .crash
    | some _ => .text []
  | .headerFile f =>
    match gnFile f with
    | .text _ => .text []
    | e => e

end Verif.Model
