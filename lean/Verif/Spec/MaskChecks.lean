import Verif.Model.MaskChecks
/-!
# Specification of profile masks (C153)
-/
namespace Verif.Spec
open Verif.Model

/-- The masks installed, in order. -/
def PmkInstalled : List PmkEvent → List Nat
  | [] => []
  | .installed f _ :: l => f :: PmkInstalled l
  | _ :: l => PmkInstalled l

/-- The masks called for a check, in order, with their answers. -/
def PmkAsked (t : Nat) : List PmkEvent → List (Nat × Bool)
  | [] => []
  | .asked u f b :: l => if u = t then (f, b) :: PmkAsked t l else PmkAsked t l
  | _ :: l => PmkAsked t l

/-- The identifier returned is the number of masks installed before: no two are the same. -/
def PmkIds (log : List PmkEvent) : Prop :=
  ∀ pre f id post, log = pre ++ .installed f id :: post → id = (PmkInstalled pre).length

/-- A profile that is let through was let through by every mask installed until the check returned, each called once and in order. -/
def PmkPassed (log : List PmkEvent) : Prop :=
  ∀ pre t post, log = pre ++ .ended t false :: post → PmkAsked t pre = (PmkInstalled pre).map (fun f => (f, false))

/-- A profile that is filtered was filtered by a mask installed, and let through by those installed before that one. -/
def PmkFiltered (log : List PmkEvent) : Prop :=
  ∀ pre t post, log = pre ++ .ended t true :: post → ∃ before f after, PmkInstalled pre = before ++ f :: after ∧
    PmkAsked t pre = before.map (fun f => (f, false)) ++ [(f, true)]

end Verif.Spec
