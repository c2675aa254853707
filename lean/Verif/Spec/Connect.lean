import Verif.Model.Connect
/-! What C92 says about connecting a socket. -/
namespace Verif.Spec
open Verif.Model

/-- The clock, in microseconds, never goes back; `time (NULL)` tells full seconds. A socket that blocks is never in progress. -/
def tcpSane (e : TcpEnv) (us : Nat → Int) : Prop :=
  (∀ i j, i ≤ j → us i ≤ us j) ∧ (∀ k, e.clock k = us k / 1000000) ∧ e.blocking ≠ .progress

/-- A round that tells nothing: it is over, or it was interrupted. -/
def cwQuiet (o : CwOut) : Prop := o = .round ∨ o = .again ∨ o = .failed EINTR ∨ o = .failed EAGAIN

/-- A connection with a timeout, in progress, for which the waiting mechanism finds after `n` quiet rounds that it is established, while the
time is not over. -/
def tcpInTime (e : TcpEnv) (us : Nat → Int) : Prop :=
  e.resolved ∧ e.socketOk ∧ e.limitOk ∧ e.sane ∧ 0 < e.timeout ∧ e.nonBlocking = .progress ∧
  ∃ pre post, e.outs = pre ++ .ready :: post ∧ (∀ o ∈ pre, cwQuiet o) ∧ us (pre.length + 2) < us 0 + e.timeout

/-- The timeout is a number of seconds, and an `int` of microseconds. -/
def tcpSeconds (e : TcpEnv) : Prop := ∃ n : Int, 0 < n ∧ e.timeout = n * 1000000 ∧ e.timeout < 2147483648

/-- Every answer of the name service is for the transport that was asked for. -/
def dnsSane (qs : List HostQuery) : Prop := ∀ q ∈ qs, ∀ h p t a, q.dns h p t = some a → a.family = t

end Verif.Spec
