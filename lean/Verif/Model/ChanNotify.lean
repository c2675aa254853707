/-!
Handlers called when a channel is added to or removed from a connection: `__vortex_connection_check_and_notify`,
src/vortex_connection.c:2565-2645, with `vortex_connection_set_channel_added_handler`, `vortex_connection_set_channel_removed_handler` and
`vortex_connection_remove_handler`, src/vortex_connection.c:5229-5391.

One list of handlers (for additions or for removals; the code is the same), one notification. A handler is called with the mutex released, so
the list may be changed, by the handler or by other threads, between two looks at it. Handlers are numbers. The list is one of libaxl, outside
this repository: whether a new handler goes to its end or its front is a parameter. Not modelled: the global handlers of the context (:2583-2594),
failures of allocation, the look at the length before the mutex is taken (:2603).
-/
namespace Verif.Model

structure ChanNotify where
  handlers : List Nat
  /-- `iterator`, :2609 -/
  next : Nat
  /-- the handler whose address was copied, before its call, :2625-2629 -/
  taken : Option Nat
  /-- handlers called, the latest at the end -/
  called : List Nat
  /-- the loop has ended, :2610 -/
  over : Bool
  /-- handlers for which `vortex_connection_remove_handler` returned -/
  removed : List Nat
  deriving DecidableEq, Repr

def ChanNotify.init (handlers : List Nat) : ChanNotify := ⟨handlers, 0, none, [], false, []⟩

inductive ChanNotifyAct
  /-- the loop takes the next handler, or ends, :2610-2629 -/
  | take
  /-- the handler taken is called and returns, :2632-2639 -/
  | call
  /-- a handler is installed, :5229-5271, 5296-5347 -/
  | add (h : Nat)
  /-- a handler is removed, :5361-5391 -/
  | remove (h : Nat)
  deriving DecidableEq, Repr

def ChanNotify.step (front : Bool) (s : ChanNotify) : ChanNotifyAct → ChanNotify
  | .take =>
    if s.over || s.taken.isSome then s
    else match s.handlers[s.next]? with
      | some h => { s with taken := some h }
      | none => { s with over := true }
  | .call =>
    match s.taken with
    | none => s
    | some h => { s with taken := none, called := s.called ++ [h], next := s.next + 1 }
  | .add h => { s with handlers := if front then h :: s.handlers else s.handlers ++ [h] }
  | .remove h => { s with handlers := s.handlers.erase h, removed := h :: s.removed }

def ChanNotify.run (front : Bool) (s : ChanNotify) (acts : List ChanNotifyAct) : ChanNotify := acts.foldl (·.step front) s

end Verif.Model
