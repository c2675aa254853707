import Verif.Model.SaslOverlap
/-!
# Specification of SASL negotiations that overlap (C151)
-/
namespace Verif.Spec
open Verif.Model

/-- The value the program set last. -/
def SngWanted (p : SngProp) : List SngOp → Option Nat
  | [] => none
  | op :: ops =>
    match SngWanted p ops with
    | some v => some v
    | none =>
      match op with
      | .set q v => if q = p then some v else none
      | _ => none

/-- Those values are the ones the program set last. -/
def SngFaithful (ops : List SngOp) (c : SngProps) : Prop :=
  c.authid = SngWanted .authid ops ∧ c.authzid = SngWanted .authzid ops ∧ c.password = SngWanted .password ops ∧
    c.realm = SngWanted .realm ops ∧ c.token = SngWanted .token ops

/-- C151 in full: in every schedule no released memory is used; every reply is
given to the session of its own negotiation; a first message is built from the values the program set last; and a connection whose
program was told of a success is authenticated. -/
def C151_statement : Prop :=
  (∀ ops s, sngRun sngInit ops = some s → s.bad = false ∧
    (∀ i j, .fed i j ∈ s.log → j = i) ∧
    (∀ i, .told i true ∈ s.log → s.authed = true)) ∧
  (∀ ops i s, sngRun sngInit (ops ++ [.first i true]) = some s →
    ∃ c, s.log.getLast? = some (.first i c) ∧ SngFaithful ops c)

/-- A negotiation is started when none is in progress. -/
def SngCalm (s : SngState) : SngOp → Prop
  | .start _ _ => ∀ i, s.tasks i = .none ∨ s.tasks i = .finished
  | _ => True

/-- … all along the schedule. -/
def SngCalmRun (s : SngState) : List SngOp → Prop
  | [] => True
  | op :: ops => SngCalm s op ∧ ∀ m, sngStep s op = some m → SngCalmRun m ops

end Verif.Spec
