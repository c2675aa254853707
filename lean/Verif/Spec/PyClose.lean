import Verif.Model.PyClose
/-!
# Specification of the close handlers of the Python bindings (C140)

The life of one handler, followed through what the program and the network did.
-/
namespace Verif.Spec
open Verif.Model

/-- What became of a handler. -/
inductive PycFate
  /-- not installed yet -/
  | unset
  /-- installed in this connection -/
  | pending (c : Nat)
  /-- the connection fell: the function was called -/
  | called
  /-- removed by the program -/
  | removed
  /-- given for a connection that had fallen or was closed already -/
  | late
deriving DecidableEq, Repr

/-- Calls of `set_on_close`. -/
def PycSets (ops : List PycOp) : List (Nat × Nat × Nat) :=
  ops.filterMap fun op => match op with
    | .set w fn data => some (w, fn, data)
    | _ => none

/-- The connection fell in this history: it was lost or closed. -/
def PycFell (link : Nat → Nat) (c : Nat) (ops : List PycOp) : Prop :=
  .lost c ∈ ops ∨ ∃ w, .close w ∈ ops ∧ link w = c

/-- How one more event changes the fate of the handler of the `k`-th `set_on_close`,
`earlier` being the history before. -/
inductive PycNext (link : Nat → Nat) (k : Nat) (earlier : List PycOp) : PycFate → PycOp → PycFate → Prop
  | set (w fn data : Nat) : (PycSets earlier).length = k → ¬ PycFell link (link w) earlier →
      PycNext link k earlier .unset (.set w fn data) (.pending (link w))
  | late (w fn data : Nat) : (PycSets earlier).length = k → PycFell link (link w) earlier →
      PycNext link k earlier .unset (.set w fn data) .late
  | other (f : PycFate) (w fn data : Nat) : (PycSets earlier).length ≠ k → PycNext link k earlier f (.set w fn data) f
  | lost (c : Nat) : PycNext link k earlier (.pending c) (.lost c) .called
  | close (w : Nat) : PycNext link k earlier (.pending (link w)) (.close w) .called
  | remove (w : Nat) : PycNext link k earlier (.pending (link w)) (.remove w k) .removed
  | lostElse (f : PycFate) (c : Nat) : f ≠ .pending c → PycNext link k earlier f (.lost c) f
  | closeElse (f : PycFate) (w : Nat) : f ≠ .pending (link w) → PycNext link k earlier f (.close w) f
  | removeElse (f : PycFate) (w j : Nat) : (j = k → f ≠ .pending (link w)) → PycNext link k earlier f (.remove w j) f

/-- The fate of the handler of the `k`-th `set_on_close` after a history. -/
inductive PycFateOf (link : Nat → Nat) (k : Nat) : List PycOp → PycFate → Prop
  | nil : PycFateOf link k [] .unset
  | snoc (ops : List PycOp) (op : PycOp) (f g : PycFate) : PycFateOf link k ops f → PycNext link k ops f op g →
      PycFateOf link k (ops ++ [op]) g

/-- Python calls made for handler `k`. -/
def PycCallsOf (s : PycState) (k : Nat) : List (Nat × Nat × Nat) :=
  (s.calls.filter (fun e => e.1 == k)).map (·.2)

/-- The references taken by handler `k` were dropped. -/
def PycReleased (s : PycState) (k : Nat) : Prop := ∃ o, s.objs[k]? = some o ∧ o.freed = true

/-- What a program relies on for one handler: it is called once, with the
connection and data given, if the connection fell while installed, and never
otherwise; its references are held while it is installed and dropped after. -/
def PycKept (link : Nat → Nat) (ops : List PycOp) : Prop :=
  ∀ k f, PycFateOf link k ops f →
    (f = .called → ∃ e, (PycSets ops)[k]? = some e ∧ PycCallsOf (pycRun link ops) k = [e]) ∧
    (f ≠ .called → PycCallsOf (pycRun link ops) k = []) ∧
    (∀ c, f = .pending c → ¬ PycReleased (pycRun link ops) k) ∧
    (f ≠ .unset → (∀ c, f ≠ .pending c) → PycReleased (pycRun link ops) k)

/-- `remove_on_close` says whether it removed the handler. -/
def PycAnswers (link : Nat → Nat) (ops : List PycOp) : Prop :=
  ∀ w k f, PycFateOf link k ops f → f ≠ .unset →
    ∃ b : Bool, (pycRun link (ops ++ [.remove w k])).results = (pycRun link ops).results ++ [b] ∧
      (b = true ↔ f = .pending (link w))

/-- C140 in full: in every history, no memory is used after it was freed,
every handler has the fate described and `remove_on_close` answers the truth. -/
def C140_statement : Prop :=
  ∀ (link : Nat → Nat) (ops : List PycOp), (pycRun link ops).bad = false ∧ PycKept link ops ∧ PycAnswers link ops

/-- Every call of `remove_on_close` is made through the connection where the
handler was installed, while it is installed, or after it was removed. -/
def PycOrderly (link : Nat → Nat) (ops : List PycOp) : Prop :=
  ∀ pre w k post, ops = pre ++ .remove w k :: post → ∀ f, PycFateOf link k pre f →
    f = .pending (link w) ∨ f = .removed ∨ f = .unset

/-- Every handler is given for a connection that has not fallen. -/
def PycTimely (link : Nat → Nat) (ops : List PycOp) : Prop :=
  ∀ pre w fn data post, ops = pre ++ .set w fn data :: post → ¬ PycFell link (link w) pre

end Verif.Spec
