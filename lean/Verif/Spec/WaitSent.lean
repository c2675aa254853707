import Verif.Model.WaitSent
/-! What C82 says about the wait for a reply to be written. -/
namespace Verif.Spec
open Verif.Model

def reachedSent (s : SentWait) : Prop := ∃ acts, SentWait.init.run acts = some s

/-- The write of the reply was made or tried. -/
def replyWritten (s : SentWait) : Prop := s.msg = .written ∨ s.msg = .found ∨ s.msg = .signalled

/-- Nobody is going to push anything: the sequencer is done with the reply, and no thread is about to call the close handler. -/
def sentQuiet (s : SentWait) : Prop := (s.msg = .signalled ∨ s.msg = .dropped) ∧ s.marks = 0

/-- The caller is stuck in the call. -/
def sentStuck (s : SentWait) : Prop := (s.pc = .waiting ∨ s.pc = .again) ∧ s.items = []

end Verif.Spec
