import Verif.Model.Log
/-!
# What the settings of the log say
-/
namespace Verif.Spec
open Verif.Model

/-- The value set by the last call that sets it, or the one in force without a call. -/
def lgLast {α : Type} (pick : LgOp → Option α) (default : α) (ops : List LgOp) : α :=
  ops.foldl (fun a op => (pick op).getD a) default

def lgEnabled (env : LgEnv) : List LgOp → Bool := lgLast (fun | .enable b => some b | _ => none) env.debug
def lgEnabled2 (env : LgEnv) : List LgOp → Bool := lgLast (fun | .enable2 b => some b | _ => none) env.debug2
def lgColor (env : LgEnv) : List LgOp → Bool := lgLast (fun | .color b => some b | _ => none) env.color
def lgFilter (env : LgEnv) : List LgOp → Option LgNames := lgLast (fun | .filter f => some f | _ => none) env.filter
def lgMutex : List LgOp → Bool := lgLast (fun | .acquire b => some b | _ => none) false
def lgHandler : List LgOp → Option Nat := lgLast (fun | .handler h => some h | _ => none) none
def lgHandler2 : List LgOp → Option Nat := lgLast (fun | .handler2 h => some h | _ => none) none

/-- Who wrote what, and where it went. -/
def lgLine (o : LgOut) : Nat × LgLevel × Nat × LgDest := (o.thread, o.level, o.text, o.dest)

/-- The filter in force hides that level. -/
def lgHidden (env : LgEnv) (ops : List LgOp) (level : LgLevel) : Bool :=
  match lgFilter env ops, level with
  | some f, .debug => f.debug
  | some f, .warning => f.warning
  | some f, .critical => f.critical
  | none, _ => false

/-- Where a message goes, after the settings of `ops`. -/
def lgDests (env : LgEnv) (ops : List LgOp) (level : LgLevel) : List LgDest :=
  if lgEnabled env ops && !lgHidden env ops level then
    match lgHandler ops, lgHandler2 ops with
    | none, none => [.console (lgColor env ops)]
    | some h, none => [.first h]
    | none, some k => [.second k]
    | some h, some k => [.first h, .second k]
  else []

end Verif.Spec
