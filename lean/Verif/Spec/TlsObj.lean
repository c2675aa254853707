import Verif.Model.TlsObj
/-!
# What a TLS negotiation leaves behind, and what it uses
-/
namespace Verif.Spec
open Verif.Model

def tbOwnOf : TbOp → Option Nat
  | .own f => some f
  | _ => none

def tbDfltOf : TbOp → Option Nat
  | .dflt f => some f
  | _ => none

/-- The function that makes contexts, as the application set it: the last one of the connection, or else the last default. -/
def tbMaker (ops : List TbOp) : Option Nat :=
  (ops.filterMap tbOwnOf).getLast?.or
    (ops.filterMap tbDfltOf).getLast?

/-- The certificate and the key the application named when it accepted the last request it answered with both. -/
def tbNamed (ops : List TbOp) : Option (Nat × Nat) :=
  (ops.filterMap (fun o => match o with | .start true true (some c) (some k) => some (c, k) | _ => none)).getLast?

/-- The negotiation is going on, or starts with this step. -/
def tbPending (s : Tb) : TbOp → Bool
  | .prepare _ => s.phase == .prepare
  | .accept _ _ => s.phase == .accepting
  | .connect _ => s.phase == .idle
  | _ => false

/-- The negotiation ended without a secured connection. -/
def tbEnded (s : Tb) : Bool := s.phase == .idle || s.phase == .broken

/-- How many negotiations failed. -/
def tbFailures (s : Tb) : List TbOp → Nat
  | [] => 0
  | o :: os => (if tbPending s o && tbEnded (s.step o) then 1 else 0) + tbFailures (s.step o) os

/-- Once a context exists nothing fails before the handshake, and who names a certificate names a key. -/
def tbTidy : TbOp → Bool
  | .start _ _ cert key => cert.isNone || key.isSome
  | .prepare p => !p.made || (p.certOk && p.keyOk && p.same && p.sslOk && p.connOk)
  | .connect e => !e.made || e.sslOk
  | _ => true

/-- At the listener a context can always be made and the connection that replaces the old one too. -/
def tbServes : TbOp → Bool
  | .prepare p => p.made && p.connOk
  | .connect _ => false
  | _ => true

/-- The connection that replaces the old one can always be made. -/
def tbRenews : TbOp → Bool
  | .connect e => e.renewed
  | _ => true

/-- No connection is shut down or released between `<proceed />` and the first octets of the handshake. -/
def TbPatient (s : Tb) : List TbOp → Prop
  | [] => True
  | o :: os => ((o = .shutdown ∨ o = .release) → s.phase ≠ .prepare) ∧ TbPatient (s.step o) os

end Verif.Spec
