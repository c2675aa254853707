import Verif.Model.ListenNew
namespace Verif.Spec
open Verif.Model

/-- The application was given the listener: by a handler of the full kind, or as value of a call without handlers. -/
def LnKnown (c : LnCall) : Prop := c.value = some true ∨ ∃ t ∈ c.told, t.conn = true

/-- What the documentation of `vortex_listener_new` and `vortex_listener_new_full2` allows: a listener is looked at, shut down or referenced while it
works or the application has a reference; references are given back once; a listener that was not started must be closed, and a listener may be
closed by an owner of a reference. -/
def LnDocumented (s : LnState) : LnOp → Prop
  | .check i => LnKnown (s.calls i) ∧ ((s.calls i).ok = true ∨ 0 < (s.calls i).user ∨ ((s.calls i).refused = true ∧ (s.calls i).closed = false))
  | .shutdown i => LnKnown (s.calls i) ∧ ((s.calls i).ok = true ∨ 0 < (s.calls i).user)
  | .close i => LnKnown (s.calls i) ∧ (0 < (s.calls i).user ∨ ((s.calls i).refused = true ∧ (s.calls i).closed = false))
  | .ref i => LnKnown (s.calls i) ∧ (s.calls i).ok = true
  | .unref i => LnKnown (s.calls i) ∧ 0 < (s.calls i).user
  | _ => True

/-- A more careful application: it uses a listener only after the call that makes it has ended, closes only listeners that do not work and of which
it has a reference, and otherwise touches only those that work or of which it has a reference. -/
def LnCareful (s : LnState) : LnOp → Prop
  | .check i => (s.calls i).pc = .done ∧ ((s.calls i).ok = true ∨ 0 < (s.calls i).user)
  | .shutdown i => (s.calls i).pc = .done ∧ ((s.calls i).ok = true ∨ 0 < (s.calls i).user)
  | .close i => (s.calls i).pc = .done ∧ (s.calls i).ok = false ∧ 0 < (s.calls i).user
  | .ref i => (s.calls i).pc = .done ∧ (s.calls i).ok = true
  | .unref i => (s.calls i).pc = .done ∧ 0 < (s.calls i).user
  | _ => True

/-- A system that gives no descriptor up to 2 to the calls, and that can tell the address of a socket that listens (so that the connection object can
be made). -/
def LnSystem (s : LnState) : LnOp → Prop
  | .step i e => ((s.calls i).pc = .socket → ∀ n, e.fd = some n → 2 < n) ∧ ((s.calls i).pc = .make → e.yes = true)
  | _ => True

def LnObeys (rule : LnState → LnOp → Prop) : LnState → List LnOp → Prop
  | _, [] => True
  | s, op :: r => rule s op ∧ LnObeys rule (s.step op) r

/-- How often the handler of one kind was called. -/
def lnTold (c : LnCall) (full : Bool) : Nat := (c.told.filter (fun t => t.full == full)).length

/-- Nothing is used after its release and no descriptor of somebody else is closed. When a call has ended, each handler it was given was called once,
with `VortexOk` exactly if the listener was started and then with the address it is bound to. Without handlers, the listener is returned exactly if it
was made. It is bound to the port asked for, and a listener that does not work leaves no descriptor open. -/
def LnSound (s : LnState) : Prop :=
  s.bad = false ∧ s.stolen = false ∧ ∀ i, (s.calls i).pc = .done →
    (lnTold (s.calls i) false = if (s.calls i).plain then 1 else 0) ∧
    (lnTold (s.calls i) true = if (s.calls i).full then 1 else 0) ∧
    (∀ t ∈ (s.calls i).told, (t.fine = true ↔ (s.calls i).made = true ∧ (s.calls i).refused = false) ∧
      (t.fine = true → t.host = (s.calls i).host ∧ t.port = (s.calls i).bound)) ∧
    ((s.calls i).plain = false → (s.calls i).full = false → (s.calls i).value = some (s.calls i).made) ∧
    ((s.calls i).made = true → (s.calls i).port ≠ 0 → ((s.calls i).bound : Int) = (s.calls i).port) ∧
    ((s.calls i).ok = false → ∀ n, s.fds n ≠ some (.call i))

end Verif.Spec
