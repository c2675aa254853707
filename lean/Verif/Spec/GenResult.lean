import Verif.Model.GenResult
import Verif.Spec.GenValues
/-!
# A call through the code of the interface compiler (C139)
-/
namespace Verif.Spec
open Verif.Model

/-- The arguments are values of the types, and none of the structs and arrays is NULL. -/
def GrGiveable : List GvType → List GvValue → Prop
  | [], [] => True
  | t :: ts, v :: vs => GvFits t v ∧ v ≠ .null ∧ GrGiveable ts vs
  | _, _ => False

/-- The arguments are values of the types. -/
def GrOfType : List GvType → List GvValue → Prop
  | [], [] => True
  | t :: ts, v :: vs => GvFits t v ∧ GrOfType ts vs
  | _, _ => False

/-- The status is a failure. -/
def GrFails (code : Int) (text : List Byte) (s : GrSeen) : Prop := ∃ v, s = .got v false code (some text)

/-- The status is OK, with this value. -/
def GrReturns (v : GvValue) (s : GrSeen) : Prop := ∃ t, s = .got v true (-1) t

/-- The whole property: for every service and arguments of its types, the caller gets what the service left when it was called with the arguments: its fault, or its value, or a fault
when there is neither; at once and later the same; and a call with other arguments is answered. -/
def C139_statement : Prop :=
  (∀ (types : List GvType) (ret : GvType) (f : List GvValue → GrResult) (args : List GvValue), (∀ t ∈ types, GvWell t) → GvWell ret → GrOfType types args →
    (∀ l, GvFits ret (f l).value) → ∃ s, grCall types ret f args = some s ∧
      (∀ t, (f (args.map gvArrives)).fault = some t → GrFails (f (args.map gvArrives)).code t s) ∧
      ((f (args.map gvArrives)).fault = none → (f (args.map gvArrives)).value ≠ .null → (f (args.map gvArrives)).value ≠ .text none → GrReturns (gvArrives (f (args.map gvArrives)).value) s) ∧
      ((f (args.map gvArrives)).fault = none → (f (args.map gvArrives)).value = .null ∨ (f (args.map gvArrives)).value = .text none → ∃ t, GrFails (-2) t s)) ∧
  (∀ (types : List GvType) (ret : GvType) (f : List GvValue → GrResult) (ws : List GvWire), grServe types ret f ws ≠ some .silent)

end Verif.Spec
