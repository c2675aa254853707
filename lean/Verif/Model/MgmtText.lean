import Verif.Model.Chan0
import Verif.Model.XmlRpc
/-!
# The text of the messages of channel 0 (src/vortex_frame_factory.c)

How the messages are written, and how an error and the answer to a request to close are read. How requests are read is in
Model/Chan0.lean. Strings end at the first zero octet (`cstr`).
-/
namespace Verif.Model

/-- An XML element as seen through axl (not in /repo): name, attributes, and the text inside (`none` is NULL). -/
structure XmlElem where
  name : List Byte
  attrs : List (List Byte × List Byte)
  text : Option (List Byte)
  deriving DecidableEq, Repr

/-- A parsed document: the root, and its children. -/
structure XmlDoc where
  root : XmlElem
  kids : List XmlElem
  deriving DecidableEq, Repr

/-- What the requests of channel 0 look at. -/
def XmlDoc.mgmt (d : XmlDoc) : MgmtDoc := ⟨⟨d.root.name, d.root.attrs⟩, d.kids.head?.map (fun e => (⟨e.name, e.attrs⟩, e.text))⟩

/-- `vortex_frame_get_ok_message`, src/vortex_frame_factory.c:2882-2895. -/
def okMessage : List Byte := lit "<ok />"

/-- `vortex_frame_get_error_message`, src/vortex_frame_factory.c:2909-2922. -/
def errorMessage (code : List Byte) (text lang : Option (List Byte)) : List Byte :=
  lit "<error code='" ++ cstr code ++ lit "'" ++
  (match lang with
    | some l => lit " xml:lang='" ++ cstr l ++ lit "' "
    | none => []) ++
  (match text with
    | some t => lit " >" ++ cstr t ++ lit "</error>" ++ crlf
    | none => lit " />" ++ crlf)

/-- `vortex_frame_get_start_message`, src/vortex_frame_factory.c:2977-2999; the size of the content is not used. -/
def startMessage (num : Int) (serverName : Option (List Byte)) (profile : List Byte) (base64 : Bool) (content : Option (List Byte)) :
    List Byte :=
  lit "<start number='" ++ printInt num ++ lit "'" ++
  (match serverName with
    | some s => lit " serverName='" ++ cstr s ++ lit "'"
    | none => []) ++
  lit ">" ++ crlf ++ lit "   <profile uri='" ++ cstr profile ++ lit "'" ++
  (if base64 then lit " encoding='base64'" else []) ++
  (match content with
    | some c => lit ">" ++ lit "<![CDATA[" ++ cstr c ++ lit "]]>" ++ lit "</profile>" ++ crlf
    | none => lit " />" ++ crlf) ++
  lit "</start>" ++ crlf

/-- `vortex_frame_get_close_message`, src/vortex_frame_factory.c:3014-3028. -/
def closeMessage (num : Int) (code : List Byte) (lang content : Option (List Byte)) : List Byte :=
  lit "<close number='" ++ printInt num ++ lit "' code='" ++ cstr code ++ lit "'" ++
  (match lang with
    | some l => lit " xml:lang='" ++ cstr l ++ lit "' "
    | none => []) ++
  (match content with
    | some t => lit " >" ++ cstr t ++ lit "</close>" ++ crlf
    | none => lit " />" ++ crlf)

/-- `vortex_frame_get_start_rpy_message`, src/vortex_frame_factory.c:3039-3049. -/
def startReplyMessage (profile : List Byte) (content : Option (List Byte)) : List Byte :=
  lit "<profile uri='" ++ cstr profile ++ lit "'" ++
  (match content with
    | some c => lit " >" ++ lit "<![CDATA[" ++ cstr c ++ lit "]]>" ++ lit "</profile>" ++ crlf
    | none => lit " />" ++ crlf)

/-- `vortex_channel_validate_err` (`vortex_frame_is_error_message`), src/vortex_channel.c:5331-5399: code and text, or `none`: not an error
message. `parse` and `valid` are `axl_doc_parse` and `axl_dtd_validate` (axl, not in /repo). -/
def readError (parse : List Byte → Option XmlDoc) (valid : XmlDoc → Bool) (body : List Byte) :
    Option (Option (List Byte) × Option (List Byte)) :=
  match parse body with
  | none => none
  | some d =>
    if valid d = false then none
    else if d.root.name ≠ lit "error" then none
    else some (d.root.attrs.lookup (lit "code"), d.root.text)

/-- `__vortex_channel_close_validate_rpy`, src/vortex_channel.c:5411-5474. -/
def readCloseReply (parse : List Byte → Option XmlDoc) (valid : XmlDoc → Bool) (body : List Byte) : Bool :=
  if cstr body = okMessage then true
  else
    match parse body with
    | none => false
    | some d => if valid d = false then false else decide (d.root.name = lit "ok")

end Verif.Model
