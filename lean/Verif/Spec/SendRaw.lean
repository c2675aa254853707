import Verif.Model.SendRaw
/-!
# Vocabulary of C42
-/
namespace Verif.Spec
open Verif.Model

/-- What the peer receives. -/
def wireOctets (s : Writers) : List UInt8 := s.wire.map (·.2)

/-- The octets a call put on the wire, in the order it did. -/
def octetsOf (id : Nat) (s : Writers) : List UInt8 := (s.wire.filter (fun p => p.1 == id)).map (·.2)

/-- The frames reported as written, in the order the calls returned. -/
def reportedSent (log : List WriteEvent) : List (List UInt8) :=
  log.filterMap fun
    | .returned _ f true => some f
    | .returned _ _ false => none

/-- The calls do not overlap, and every write that is not complete leaves the call another try. -/
def Orderly (g : WriteConfig) (s : Writers) : List WriteOp → Prop
  | [] => True
  | op :: ops =>
    (match op with
      | .begin _ => s.calls = []
      | .attempt i (.wrote n _) =>
        match s.calls[i]? with
        | some c => n < c.frame.length - c.total → c.tries ≠ 1
        | none => True
      | _ => True) ∧ Orderly g (s.step g op).2 ops

end Verif.Spec
