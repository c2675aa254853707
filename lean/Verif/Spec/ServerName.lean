import Verif.Model.ServerName
/-!
# What the serverName of a connection should be
-/
namespace Verif.Spec
open Verif.Model

/-- The name a channel should be asked for with (src/vortex_types.h:461-477, src/vortex_ctx.c:609-630): the one given; none if the
connection has one; the one of the options; the host, unless the context or the options say not to use it. -/
def snWanted (c : SnConf) (bound explicit : Option SName) : Option SName :=
  match explicit, bound, c.opts with
  | some n, _, _ => some n
  | none, some _, _ => none
  | none, none, some (some n, _) => some n
  | none, none, some (none, acquire) => if c.ctxAcquire && acquire then some c.host else none
  | none, none, none => if c.ctxAcquire then some c.host else none

/-- The part before a port. -/
def snHost (n : SName) : SName := n.takeWhile (· != ':')

/-- The name of the first channel that was created with one, where `last` is what each thread asked for last. -/
def snFirst (last : Nat → Option SName) : List SnEvent → Option SName
  | [] => none
  | .asked c req :: r => snFirst (fun d => if d = c then req else last d) r
  | .created c :: r => match last c with
    | some n => some (snHost n)
    | none => snFirst last r
  | _ :: r => snFirst last r

/-- What thread `c` asked for last. -/
def snLast (c : Nat) : List SnEvent → Option SName → Option SName
  | [], x => x
  | .asked d req :: r, x => snLast c r (if c = d then req else x)
  | _ :: r, x => snLast c r x

/-- No call that creates a channel is in progress. -/
def snQuiet (s : SnState) : Prop := ∀ c, s.cl c = .idle

/-- Channels are asked for one after the other. -/
def snOneByOne (conf : SnConf) (ops : List SnOp) : Prop :=
  ∀ a c e b, ops = a ++ .ask c e :: b → snQuiet (snRun conf .init [] a).1

end Verif.Spec
