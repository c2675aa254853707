import Verif.Model.DeliverRefs
/-! What C78 says about frame delivery. -/
namespace Verif.Spec
open Verif.Model

/-- No delivery is going on. -/
def quietDeliv (s : Deliv) : Prop := s.waiting = [] ∧ s.running = []

/-- Deliveries that are queued or in a handler. -/
def activeDeliv (s : Deliv) : Nat := s.waiting.length + s.running.length

/-- The number of first level deliveries among these. -/
def firstTasks (l : List DelivTask) : Nat := l.countP (fun t => t.level == .first)

/-- Every first level delivery begins while the connection works, the channel is open and the profile has its handler. -/
def calmDeliv (s : Deliv) : List DelivAct → Prop
  | [] => True
  | a :: as =>
    (∀ i t, a = .enter i → s.waiting[i]? = some t → t.level = .first → s.connOk = true ∧ s.chanOpen = true ∧ s.handler = true) ∧
    calmDeliv (s.step a) as

/-- Frames have different sequence numbers. -/
def distinctSeqnos (l : List DelivFrm) : Prop := (l.map DelivFrm.seqno).Nodup

end Verif.Spec
