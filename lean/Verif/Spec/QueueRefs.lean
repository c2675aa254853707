import Verif.Model.QueueRefs
/-!
# Specification of the references of a queue (C152)
-/
namespace Verif.Spec
open Verif.Model

/-- The variables that have a reference after those calls, if they had `l` before. -/
def QrfHolders (l : List Nat) : List QrfOp → List Nat
  | [] => l
  | .share _ w :: ops => QrfHolders (w :: l) ops
  | .unref v :: ops => QrfHolders (l.erase v) ops
  | .safeUnref v :: ops => QrfHolders (l.erase v) ops
  | .use _ :: ops => QrfHolders l ops

/-- Every call is made through a variable that has a reference; a reference is given to a variable without. -/
def QrfProper (l : List Nat) : List QrfOp → Prop
  | [] => True
  | .share v w :: ops => v ∈ l ∧ w ∉ l ∧ QrfProper (w :: l) ops
  | .unref v :: ops => v ∈ l ∧ QrfProper (l.erase v) ops
  | .safeUnref v :: ops => v ∈ l ∧ QrfProper (l.erase v) ops
  | .use v :: ops => v ∈ l ∧ QrfProper l ops

/-- C152 in full: the safe release, which sets the variable to NULL, makes the next
calls through that variable harmless. After any calls made properly and a safe release through a variable, the variable is NULL. -/
def C152_statement : Prop :=
  ∀ ops v, QrfProper [0] (ops ++ [.safeUnref v]) → (qrfRun qrfInit (ops ++ [.safeUnref v])).ptr v = false

end Verif.Spec
