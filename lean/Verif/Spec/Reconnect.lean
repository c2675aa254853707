import Verif.Model.Reconnect
import Verif.Spec.ConnNew
import Verif.Spec.Watch
/-! What C94 says about connecting again. -/
namespace Verif.Spec
open Verif.Model

/-- A connection is in this state between two reads. -/
inductive ReadReached : ReadState → Prop
  | new : ReadReached .init
  | frame (st st' : ReadState) (env : ReadEnv) (script rest : List Tok) (f : Frame) (h : ReadReached st)
      (hn : getNext env st script = (.frame f st', rest)) : ReadReached st'
  | pending (st st' : ReadState) (env : ReadEnv) (script rest : List Tok) (h : ReadReached st)
      (hn : getNext env st script = (.pending st', rest)) : ReadReached st'

/-- What a connection is like when it is connected again: it worked, and was shut down by another thread or by the reader, or an
exchange of greetings was given up. -/
inductive OldReached : OldConn → Prop
  | shut (st : ReadState) (h : ReadReached st) : OldReached ⟨st, none⟩
  | noticed (st : ReadState) (env : ReadEnv) (script rest : List Tok) (h : ReadReached st) (hn : getNext env st script = (.shutdown, rest)) :
      OldReached ⟨readLeft st script, none⟩
  | tried (e : GxEnv) (n : Nat) (script : List Tok) (left : Int) (waits : List (Int × Int)) (s : GxState)
      (h : gxSteps e n (.init script left waits) = some s) : OldReached ⟨s.st, s.pending⟩

/-- Connections are handed to the reader, and connected again, only when it has no reference to them. -/
def reconSafe (s : Watch) : List ReconOp → Prop
  | [] => True
  | op :: ops =>
    (∀ c, op = .reconnect c ∨ op = .other (.watch c) ∨ op = .other (.listen c) → (s.conns c).refs = 0) ∧
    ∀ t l, s.reconStep op = some (t, l) → reconSafe t ops

/-- Connections and listeners are handed to the reader only when it has no reference to them; they may be connected again at any time. -/
def watchFirst (s : Watch) : List ReconOp → Prop
  | [] => True
  | op :: ops =>
    (∀ c, op = .other (.watch c) ∨ op = .other (.listen c) → (s.conns c).refs = 0) ∧
    ∀ t l, s.reconStep op = some (t, l) → watchFirst t ops

end Verif.Spec
