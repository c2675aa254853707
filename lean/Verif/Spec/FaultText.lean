import Verif.Model.FaultText
namespace Verif.Spec
open Verif.Model

/-- The caller keeps to the documentation: a string it was given is its own, to be used until it releases it, once. `n` is the number of
strings given so far, `own` those not yet released. -/
def faultDocumented : List Nat → Nat → List FaultOp → Prop
  | _, _, [] => True
  | own, n, .fault _ :: r => faultDocumented (n :: own) (n + 1) r
  | own, n, .use c :: r => c ∈ own ∧ faultDocumented own n r
  | own, n, .free c :: r => c ∈ own ∧ faultDocumented (own.filter (fun x => decide (x ≠ c))) n r
  | own, n, .set _ _ :: r => faultDocumented own n r
  | own, n, .unset _ :: r => faultDocumented own n r
  | own, n, .close :: r => faultDocumented own n r

/-- The caller never releases a string, against the documentation, and the channel is open. -/
def faultWary : Nat → List FaultOp → Prop
  | _, [] => True
  | n, .fault _ :: r => faultWary (n + 1) r
  | n, .use c :: r => c < n ∧ faultWary n r
  | _, .free _ :: _ => False
  | n, .set _ _ :: r => faultWary n r
  | n, .unset _ :: r => faultWary n r
  | _, .close :: _ => False

/-- The fault strings received. -/
def faultTexts : List FaultOp → List (List Byte)
  | [] => []
  | .fault t :: r => t :: faultTexts r
  | _ :: r => faultTexts r

/-- The keys under which data is stored. -/
def faultKeys : List FaultOp → List (List Byte)
  | [] => []
  | .set k _ :: r => k :: faultKeys r
  | .unset k :: r => k :: faultKeys r
  | _ :: r => faultKeys r

/-- What was last stored under a key; `v` was stored before. -/
def faultStored (k : List Byte) : Option Nat → List FaultOp → Option Nat
  | v, [] => v
  | v, .set k' n :: r => faultStored k (if k' = k then some n else v) r
  | v, .unset k' :: r => faultStored k (if k' = k then none else v) r
  | v, _ :: r => faultStored k v r

end Verif.Spec
