import Verif.Model.XmlRpcBoot
/-!
# What the application may expect when it boots XML-RPC channels (C116)
-/
namespace Verif.Spec
open Verif.Model

/-- Nothing more happens for this boot. -/
def BoBoot.finished (b : BoBoot) : Prop := b.phase = .over ∧ b.wait ≠ .waiting

/-- A success: the channel, ready, and the peer accepted: its first frame was a RPY with `<bootrpy />`. -/
def boSucceeded (k : Nat) (b : BoBoot) (r : BoResult) : Prop :=
  r.chan = some k ∧ b.chan = .ready ∧ b.reply = some (some (true, .bootrpy))

/-- A failure: no channel is given, and none is left open. -/
def boFailed (b : BoBoot) (r : BoResult) : Prop := r.chan = none ∧ b.chan ≠ .opened ∧ b.chan ≠ .ready

/-- The text given by a synchronous call is there, and can be read. -/
def boReadable (s : BoState) (b : BoBoot) (r : BoResult) : Prop :=
  r.msg ≠ .unset ∧ (b.sync = true → ∀ i, r.msg = .text i → s.texts[i]? = some true)

end Verif.Spec
