/-!
# Profiles that Python programs register again

Models the frame handler of a profile: `register_profile`,
`py-vortex/src/py_vortex.c` 445-531, with `py_vortex_ctx_register`
(`py_vortex_ctx.c` 839-868) and the update of the profile
(`src/vortex_profiles.c` 309-375); and the delivery of a frame,
`src/vortex_profiles.c` 896-940, `py_vortex.c` 368-438 with
`py_vortex_ctx_register_get` (`py_vortex_ctx.c` 876-910).

`register_profile` has the interpreter lock from its beginning to its end, but
the library and `py_vortex_ctx_register_get` (901-913) read without it, and what
the latter returns is not a reference of the caller.

Simplified: one profile; handlers and their data are numbered, apart; `kept`
tells which the program itself keeps for good, others are released when the
registry lets them go; a call of a handler is one step; the profile is never unregistered.
-/
namespace Verif.Model

/-- Where a thread is in the delivery of a frame. -/
inductive PgrAt
  | idle
  /-- `py_vortex_profile_frame_received` was entered -/
  | ready
  /-- the handler was read -/
  | got (h : Option Nat)
  /-- and its data -/
  | both (h d : Option Nat)
deriving DecidableEq, Repr

/-- Handler and data of the registry, whether the library calls the bridge, the registration being done,
threads, handlers and data released, calls made, whether a handler that is not there was called or released memory used. -/
structure PgrState where
  recv : Option Nat
  data : Option Nat
  bridge : Bool
  phase : Option (Bool × Option Nat × Option Nat)
  places : Nat → PgrAt
  goneH : List Nat
  goneD : List Nat
  calls : List (Nat × Option Nat)
  bad : Bool

/-- One step. -/
inductive PgrOp
  /-- `register_profile` with these begins: the handler is put in the registry -/
  | register (h d : Option Nat)
  /-- the data is put in the registry -/
  | regData
  /-- the profile is updated -/
  | regEnd
  /-- a frame is to be delivered by thread `t` -/
  | dispatch (t : Nat)
  | get (t : Nat)
  | getData (t : Nat)
  | call (t : Nat)
deriving DecidableEq, Repr

/-- What was in the registry is let go. -/
def pgrDrop (kept : Nat → Bool) (old new : Option Nat) (gone : List Nat) : List Nat :=
  match old with
  | none => gone
  | some o => if some o = new ∨ kept o = true then gone else gone ++ [o]

/-- The object is there. -/
def pgrAlive (gone : List Nat) : Option Nat → Bool
  | none => true
  | some o => !gone.contains o

/-- A thread goes elsewhere. -/
def pgrGo (s : PgrState) (t : Nat) (a : PgrAt) : PgrState := { s with places := fun j => if j = t then a else s.places j }

/-- One step, if it is possible; `keptH`, `keptD`: handlers and data the program keeps. -/
def pgrStep (keptH keptD : Nat → Bool) (s : PgrState) : PgrOp → Option PgrState
  | .register h d =>
    if s.phase = none ∧ pgrAlive s.goneH h = true ∧ pgrAlive s.goneD d = true then
      some { s with recv := h, goneH := pgrDrop keptH s.recv h s.goneH, phase := some (false, h, d) }
    else none
  | .regData =>
    match s.phase with
    | some (false, h, d) => some { s with data := d, goneD := pgrDrop keptD s.data d s.goneD, phase := some (true, h, d) }
    | _ => none
  | .regEnd =>
    match s.phase with
    | some (true, h, _) => some { s with bridge := h.isSome, phase := none }
    | _ => none
  | .dispatch t =>
    match s.places t with
    | .idle => if s.bridge then some (pgrGo s t .ready) else some s
    | _ => none
  | .get t =>
    match s.places t with
    | .ready => some (pgrGo s t (.got s.recv))
    | _ => none
  | .getData t =>
    match s.places t with
    | .got h => some (pgrGo s t (.both h s.data))
    | _ => none
  | .call t =>
    match s.places t with
    | .both h d =>
      -- with the interpreter lock
      if s.phase ≠ none then none
      else
        match h with
        -- `PyObject_Call (NULL, …)`
        | none => some { pgrGo s t .idle with bad := true }
        | some x =>
          if pgrAlive s.goneH h && pgrAlive s.goneD d then some { pgrGo s t .idle with calls := s.calls ++ [(x, d)] }
          else some { pgrGo s t .idle with bad := true }
    | _ => none

/-- Nothing registered. -/
def pgrInit : PgrState := ⟨none, none, false, none, fun _ => .idle, [], [], [], false⟩

/-- A schedule, if it is possible. -/
def pgrRun (keptH keptD : Nat → Bool) (s : PgrState) : List PgrOp → Option PgrState
  | [] => some s
  | op :: ops => (pgrStep keptH keptD s op).bind (fun s => pgrRun keptH keptD s ops)

end Verif.Model
