import Verif.Model.FileTest
/-!
# Specification of tests of files and names of files (C157)
-/
namespace Verif.Spec
open Verif.Model

/-- The name leads to the entry, which is no link, over so many links. -/
inductive FttLeads (fs : String → Option FttEntry) : Nat → String → FttEntry → Prop
  | here (p : String) (e : FttEntry) : fs p = some e → (∀ t, e ≠ .link t) → FttLeads fs 0 p e
  | link (n : Nat) (p t : String) (e : FttEntry) : fs p = some (.link t) → FttLeads fs n t e → FttLeads fs (n + 1) p e

/-- A test that can be asked for. -/
inductive FttAsked
  | exists | link | dir | regular
  deriving DecidableEq, Repr

/-- The flag of a test, src/vortex_support.h:96-108. -/
def FttFlag : FttAsked → Nat
  | .exists => 0
  | .link => 1
  | .dir => 2
  | .regular => 3

/-- What each test means for a name, where the system follows so many links. -/
def FttHolds (fs : String → Option FttEntry) (limit : Nat) (p : String) : FttAsked → Prop
  | .exists => ∃ n e, n ≤ limit ∧ FttLeads fs n p e
  | .link => ∃ t, fs p = some (.link t)
  | .dir => ∃ n, n ≤ limit ∧ FttLeads fs n p .dir
  | .regular => ∃ n, n ≤ limit ∧ FttLeads fs n p .regular

/-- C157 in full: the answer is true exactly if all tests asked for hold, of which there is at least one. -/
def C157_statement : Prop :=
  ∀ (fs : String → Option FttEntry) (limit : Nat) (p : String) (test : Nat), (∃ a, test.testBit (FttFlag a) = true) →
    (fttTest fs limit (some p) test = true ↔ ∀ a, test.testBit (FttFlag a) = true → FttHolds fs limit p a)

end Verif.Spec
