import Verif.Model.Watch
/-!
# Specification for the reader loop (C65 to C68)
-/
namespace Verif.Spec
open Verif.Model

/-- How many times a connection or listener is registered: waiting in the queue, or watched. -/
def watchHeld (s : Watch) (c : Nat) : Nat :=
  s.queue.count (.conn c) + s.queue.count (.listener c) + s.conList.count c + s.srvList.count c

/-- The reader was started, and this happened since. -/
def watchReached (s : Watch) (log : List WatchEvent) : Prop :=
  ∃ conns ops, (Watch.init conns).run ops = some (s, log)

/-- A connection that can be served. -/
def watchable (w : WatchConn) : Prop := w.ok = true ∧ w.unwatch = false ∧ w.blocked = false

/-- Nothing that happens takes this connection away from the reader. -/
def watchLeaves (c : Nat) : WatchOp → Prop
  | .reader e => e.full c = false
  | .close d => d ≠ c
  | .unwatch d => d ≠ c
  | _ => True

/-- A step of the reader thread. -/
def isReaderStep : WatchOp → Bool
  | .reader _ => true
  | _ => false

/-- The reader is still in the part of its loop where it takes what was registered. -/
def watchTaking : WatchPhase → Prop
  | .dispatch l => l = []
  | .pending _ _ => True
  | .change _ _ => True
  | _ => False

/-- The reader came to the end of its work, or is on the way there: it does not wait for connections again. -/
def watchEnding : WatchPhase → Prop
  | .stopped => True
  | .pending _ _ => True
  | .change _ _ => True
  | _ => False

/-- Nothing is handed to the reader. -/
def watchNoPush : WatchOp → Prop
  | .reader _ | .unwatch _ | .block _ _ | .close _ => True
  | _ => False

/-- The number of requests to visit all connections made with this name. -/
def foreachAsked (k : Nat) : List WatchOp → Nat
  | [] => 0
  | .foreach j :: ops => (if j = k then 1 else 0) + foreachAsked k ops
  | _ :: ops => foreachAsked k ops

/-- The number of requests to end. -/
def stopsAsked : List WatchOp → Nat
  | [] => 0
  | .stop :: ops => 1 + stopsAsked ops
  | _ :: ops => stopsAsked ops

/-- The mechanism is not changed. -/
def watchNoUse : WatchOp → Prop
  | .useBegin _ => False
  | _ => True

/-- While a thread changes the mechanism, nobody else hands something to the reader. -/
def watchQuiet (s : Watch) : List WatchOp → Prop
  | [] => True
  | op :: ops =>
    (s.user ≠ .idle → watchNoPush op ∨ (∃ m, op = .useBegin m) ∨ op = .useSet ∨ op = .useEnd) ∧
    ∀ t l, s.step op = some (t, l) → watchQuiet t ops

end Verif.Spec
