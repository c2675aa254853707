import Verif.Model.CtxStart
/-!
# What a context must not leave (C132)
-/
namespace Verif.Spec
open Verif.Model

/-- Memory of modules or threads that are left. -/
def itLeft (s : It) : Bool :=
  s.modules || s.dtd || s.queue == .live || s.stopped == .live || s.seqState == .live || s.seqBuffer == .live || s.pool ||
  decide (0 < s.readers) || decide (0 < s.senders) || decide (0 < s.workers)

end Verif.Spec
