import Verif.Model.PullAnswer
namespace Verif.Spec
open Verif.Model

/-- The application answers only requests it has taken from the queue, each once. -/
def PqDocumented (s : PqState) : PqOp → Prop
  | .answer r _ => r ∈ s.held
  | _ => True

/-- The pull API is removed only when no handler is at work, no call waits for an event, and no event is left in a queue. -/
def PqCareful (s : PqState) : PqOp → Prop
  | .cleanup => s.mid = [] ∧ s.pulls = [] ∧ ∀ q ∈ s.queues, q.items = []
  | _ => True

def PqObeys (rule : PqState → PqOp → Prop) : PqState → List PqOp → Prop
  | _, [] => True
  | s, op :: r => rule s op ∧ PqObeys rule (s.step op) r

/-- No handler is at work, no event is left in a queue, and the application has answered all events it took. -/
def PqQuiet (s : PqState) : Prop := s.mid = [] ∧ s.held = [] ∧ ∀ q ∈ s.queues, q.items = []

/-- The number of answers to a request. -/
def pqAnswers (s : PqState) (r : Nat) : Nat := (s.answers.filter (fun a => a.1 == r)).length

/-- No queue is used after it was released. No request is answered twice, none is answered that was not made, and when all is quiet every
request has been answered. -/
def PqSound (s : PqState) : Prop :=
  s.bad = false ∧ (∀ r, pqAnswers s r ≤ 1) ∧ (∀ r, s.count ≤ r → pqAnswers s r = 0) ∧ (PqQuiet s → ∀ r, r < s.count → pqAnswers s r = 1)

end Verif.Spec
