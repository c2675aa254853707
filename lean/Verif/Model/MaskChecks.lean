/-!
# Profile masks installed while profiles are checked (C153)

`vortex_connection_set_profile_mask` (src/vortex_connection.c:3893-3932) and `vortex_connection_is_profile_filtered` (:3975-4024),
which calls the masks without the lock, in the steps between which other threads, or the masks themselves, may install masks.

Simplifications: one connection, which is there all along; memory can be allocated; a check is named by a number used once; masks
are named by numbers and may answer what they like at every call.
-/
namespace Verif.Model

/-- What can be observed. -/
inductive PmkEvent
  /-- a mask was installed, with the identifier returned -/
  | installed (f : Nat) (id : Nat)
  /-- the mask was called for that check and gave that answer -/
  | asked (t : Nat) (f : Nat) (filters : Bool)
  /-- the check returned -/
  | ended (t : Nat) (filtered : Bool)
  deriving DecidableEq, Repr

/-- Where a check is. -/
inductive PmkPhase
  | none
  /-- before the condition of the loop, with the iterator -/
  | ready (k : Nat)
  /-- the mask of that position is being called, without the lock -/
  | calling (k : Nat) (f : Nat)
  | over
  deriving DecidableEq, Repr

structure PmkState where
  /-- `connection->profile_masks`; the empty list stands for NULL too -/
  masks : List Nat
  checks : Nat → PmkPhase
  log : List PmkEvent

inductive PmkOp
  /-- `vortex_connection_set_profile_mask`, with its lock -/
  | install (f : Nat)
  | check (t : Nat)
  /-- the loop looks for the next mask, with the lock -/
  | next (t : Nat)
  /-- the mask returns -/
  | answer (t : Nat) (filters : Bool)
  deriving DecidableEq, Repr

def pmkInit : PmkState := ⟨[], fun _ => .none, []⟩

/-- A check goes elsewhere. -/
def PmkState.move (s : PmkState) (t : Nat) (p : PmkPhase) : PmkState :=
  { s with checks := fun k => if k = t then p else s.checks k }

/-- One step; `none`: it cannot happen there. -/
def pmkStep (s : PmkState) : PmkOp → Option PmkState
  | .install f =>
    -- :3920-3931
    some { s with masks := s.masks ++ [f], log := s.log ++ [.installed f s.masks.length] }
  | .check t => if s.checks t = .none then some (s.move t (.ready 0)) else none
  | .next t =>
    match s.checks t with
    | .ready k =>
      -- :4002-4007
      if k < s.masks.length then
        match s.masks[k]? with
        | some f => some (s.move t (.calling k f))
        | none => none
      -- :4019-4023
      else some { s.move t .over with log := s.log ++ [.ended t false] }
    | _ => none
  | .answer t b =>
    match s.checks t with
    | .calling k f =>
      -- :4009-4013
      if b then some { s.move t .over with log := s.log ++ [.asked t f true, .ended t true] }
      -- :4014-4017
      else some { s.move t (.ready (k + 1)) with log := s.log ++ [.asked t f false] }
    | _ => none

def pmkRun (s : PmkState) : List PmkOp → Option PmkState
  | [] => some s
  | op :: ops => (pmkStep s op).bind (fun m => pmkRun m ops)

end Verif.Model
