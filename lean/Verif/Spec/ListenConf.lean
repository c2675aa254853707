import Verif.Model.ListenConf
/-!
# Specification of the listeners of the configuration file (C156)
-/
namespace Verif.Spec
open Verif.Model

/-- The configuration that asks for these listeners. -/
def LcfWritten (ls : List (String × String)) : LcfDoc :=
  ⟨"vortex-listener", ls.map fun l => ⟨"listener", [("hostname", l.1), ("port", l.2)]⟩⟩

/-- The file asks for these listeners, of which there is at least one. -/
def LcfAsks (file : Option LcfDoc) (ls : List (String × String)) : Prop := ls ≠ [] ∧ file = some (LcfWritten ls)

/-- Each listener starts, one after the other. -/
def LcfAllStart (up : List (String × String) → String × String → Bool) (ls : List (String × String)) : Prop :=
  ∀ a l b, ls = a ++ l :: b → up a l = true

/-- C156 in full: the call says yes exactly if the file asks for listeners and all of them run; if the file asks for none, nothing runs. -/
def C156_statement : Prop :=
  ∀ w : LcfWorld,
    ((lcfStart w).1 ≠ 0 ↔ ∃ ls, LcfAsks w.file ls ∧ (lcfStart w).2.2 = ls) ∧
    ((¬ ∃ ls, LcfAsks w.file ls) → (lcfStart w).2.2 = [])

end Verif.Spec
