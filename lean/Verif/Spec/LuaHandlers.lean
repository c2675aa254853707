import Verif.Model.LuaHandlers
/-!
# Specification of the answers of handlers written in Lua (C146)

What the library is told depends on what this call of this handler returned, and on nothing else.
-/
namespace Verif.Spec
open Verif.Model

/-- The answer a program means by what its handler returned. -/
inductive LhvMeant : LhvKind → LhvOut → LhvAns → Prop
  | note (o : LhvOut) : LhvMeant .note o .done
  | startYes (v : LhvVal) : v ≠ .nil → v ≠ .bool false → LhvMeant .start (.ret v) .yes
  | startNil : LhvMeant .start (.ret .nil) .no
  | startNo : LhvMeant .start (.ret (.bool false)) .no
  | startErr (v : LhvVal) : LhvMeant .start (.err v) .no
  /-- an event that returns true is not called again -/
  | eventYes : LhvMeant .event (.ret (.bool true)) .yes
  | eventNo (v : LhvVal) : v ≠ .bool true → LhvMeant .event (.ret v) .no
  | eventErr (v : LhvVal) : LhvMeant .event (.err v) .no
  | acceptYes : LhvMeant .accept (.ret (.bool true)) .yes
  | acceptNo (v : LhvVal) : v ≠ .bool true → LhvMeant .accept (.ret v) .no
  | acceptErr (v : LhvVal) : LhvMeant .accept (.err v) .no
  | certStr (t : String) : LhvMeant .cert (.ret (.str t)) (.path (some t))
  | certNum (t : String) : LhvMeant .cert (.ret (.num t)) (.path (some t))
  | certNil : LhvMeant .cert (.ret .nil) (.path none)
  | certBool (b : Bool) : LhvMeant .cert (.ret (.bool b)) (.path none)
  | certOther : LhvMeant .cert (.ret .other) (.path none)
  | certErr (v : LhvVal) : LhvMeant .cert (.err v) (.path none)
  | saslYes : LhvMeant .sasl (.ret (.bool true)) .yes
  | saslNo : LhvMeant .sasl (.ret (.bool false)) .no
  | saslStr (t : String) : LhvMeant .sasl (.ret (.str t)) (.secret t)
  | saslNum (t : String) : LhvMeant .sasl (.ret (.num t)) (.secret t)
  | saslNil : LhvMeant .sasl (.ret .nil) .no
  | saslOther : LhvMeant .sasl (.ret .other) .no
  | saslErr (v : LhvVal) : LhvMeant .sasl (.err v) .no

/-- The answer while the context is finishing: nothing is accepted, events are removed. -/
inductive LhvRefused : LhvKind → LhvAns → Prop
  | note : LhvRefused .note .done
  | start : LhvRefused .start .no
  | event : LhvRefused .event .yes
  | accept : LhvRefused .accept .no
  | cert : LhvRefused .cert (.path none)
  | sasl : LhvRefused .sasl .no

/-- The library is told `a` when handler call `c` comes after the history `pre`. -/
def LhvTold (pre : List LhvOp) (c : LhvCall) (a : LhvAns) : Prop :=
  (lhvRun (pre ++ [.call c])).2 = (lhvRun pre).2 ++ [a]

/-- The answer is the one meant. -/
def LhvFaithful (pre : List LhvOp) (c : LhvCall) : Prop :=
  ∃ a, LhvTold pre c a ∧ (.exit ∉ pre → LhvMeant c.kind c.out a) ∧ (.exit ∈ pre → LhvRefused c.kind a)

/-- C146 in full: after every history every call is answered as meant, and no
stack keeps anything. -/
def C146_statement : Prop :=
  ∀ pre c, LhvFaithful pre c ∧ ∀ t, (lhvRun pre).1.stacks t = []

/-- The value a call leaves behind in thread `t`. -/
def LhvLeaves (t : Nat) : LhvOp → Option LhvVal
  | .exit => none
  | .call c =>
    if c.thread = t then
      match c.kind, c.out with
      | _, .err v => some v
      | .note, .ret _ => none
      | _, .ret v => some v
    else none

/-- The values left in thread `t` by the calls made before the context started to finish. -/
def LhvLeft (t : Nat) (ops : List LhvOp) : List LhvVal :=
  (ops.takeWhile (fun o => o != .exit)).filterMap (LhvLeaves t)

/-- The first value left in the thread, this call included, says the same as the call:
is it `true`, or not. -/
def LhvAgrees (pre : List LhvOp) (c : LhvCall) : Prop :=
  (LhvLeft c.thread (pre ++ [.call c])).head? = some (.bool true) ↔ c.out = .ret (.bool true)

/-- The error raised is an error message or a number. -/
def LhvSpoken (o : LhvOut) : Prop := ∃ t, o = .err (.str t) ∨ o = .err (.num t)

end Verif.Spec
