import Verif.Model.WebSocketNew
/-!
# What the documentation of the WebSocket setup promises
-/
namespace Verif.Spec
open Verif.Model

/-- The last value given for an item, in a list of settings; `dflt` if none was. -/
def wbLast (pick : WbItem → Option α) (dflt : α) (items : List WbItem) : α :=
  ((items.filterMap pick).getLast?).getD dflt

/-- The values given for each item. -/
def wbOrigin : WbItem → Option (Option (List Byte)) | .origin v => some v | _ => none
def wbHost : WbItem → Option (Option (List Byte)) | .host v => some v | _ => none
def wbTls : WbItem → Option Int | .tls v => some v | _ => none
def wbVerify : WbItem → Option Int | .verify v => some v | _ => none

/-- A setup after a list of settings. -/
def wbSetup (items : List WbItem) : WbSetup := items.foldl WbSetup.conf WbSetup.new

/-- The application uses a setup while it has a reference of it; each connection takes one. -/
def WbObeys (s : WbRefs) : List WbRefOp → Prop
  | [] => True
  | op :: ops => (op ≠ .task → 0 < s.owned) ∧ WbObeys (s.step op) ops

end Verif.Spec
