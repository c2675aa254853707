import Verif.Model.OnClose
/-!
# Vocabulary of C29
-/
namespace Verif.Spec
open Verif.Model

/-- The handlers started, in order. -/
def startedIn (log : List CloseEvent) : List Nat :=
  log.filterMap fun
    | .started id => some id
    | _ => none

/-- The handlers removed. -/
def removedIn (log : List CloseEvent) : List Nat :=
  log.filterMap fun
    | .removed id => some id
    | _ => none

/-- The handlers whose thread could not be made. -/
def lostIn (log : List CloseEvent) : List Nat :=
  log.filterMap fun
    | .lost id => some id
    | _ => none

/-- The handlers without user data, in the order they were installed. -/
def plainOrder (log : List CloseEvent) : List Nat :=
  log.filterMap fun
    | .installed id => some id
    | _ => none

/-- The handlers with user data: those installed last at the end, those installed first at the front. -/
def fullOrder : List Nat → List CloseEvent → List Nat
  | l, [] => l
  | l, .installedFull true id :: log => fullOrder (l ++ [id]) log
  | l, .installedFull false id :: log => fullOrder (id :: l) log
  | l, .removed id :: log => fullOrder (l.filter (· != id)) log
  | l, _ :: log => fullOrder l log

/-- The order in which the handlers installed so far have to be started. -/
def closeOrder (log : List CloseEvent) : List Nat := plainOrder log ++ fullOrder [] log

/-- The connection is not connected again and the library does not finish. -/
def OneLife (ops : List CloseOp) : Prop := CloseOp.reconnect ∉ ops ∧ CloseOp.exit ∉ ops

/-- The threads of the handlers can be made. -/
def ThreadsWork (ops : List CloseOp) : Prop := ∀ i, CloseOp.advance i false ∉ ops

end Verif.Spec
