import Verif.Model.Conf
/-!
# What the configuration of a context should be

Everything is said about the list of calls with their results.
-/
namespace Verif.Spec
open Verif.Model

/-- The value of the last accepted `vortex_conf_set` of the item, or `x`. -/
def confLast (item : Int) : List (ConfOp × ConfRes) → Int → Int
  | [], x => x
  | (.set i v, .done true) :: r, x => confLast item r (if i = item then v else x)
  | _ :: r, x => confLast item r x

/-- The value last set for a channel, or `x`. -/
def confChanLast (c : Nat) : List (ConfOp × ConfRes) → Int → Int
  | [], x => x
  | (.chanMime d v, .done true) :: r, x => confChanLast c r (if d = c then v else x)
  | _ :: r, x => confChanLast c r x

/-- The value last set for a profile, or `x`. -/
def confProfLast (p : Nat) : List (ConfOp × ConfRes) → Int → Int
  | [], x => x
  | (.profMime q v, .done true) :: r, x => confProfLast p r (if q = p then v else x)
  | _ :: r, x => confProfLast p r x

/-- The defaults of src/vortex.h:438-560. -/
def confDefault (l : ConfLimit) (item : Int) : Int :=
  if item = 1 then i32 l.cur else if item = 2 then i32 l.max else if item = 3 then 5 else 0

/-- Headers are to be added: the first of channel, profile and context that was configured decides, with 2 for no; otherwise they are
(src/vortex_channel.c:470-489, 4017-4040). -/
def confWanted (e : ConfEnv) (c : Nat) (h : List (ConfOp × ConfRes)) : Bool :=
  let chan := confChanLast c h 0
  let prof := confProfLast (e.profile c) h 0
  let lib := confLast 5 h 0
  if chan ≠ 0 then chan != 2 else if prof ≠ 0 then prof != 2 else lib != 2

/-- All values are of type `int`. -/
def confInts (ops : List ConfOp) : Prop :=
  ∀ i v, .set i v ∈ ops → -2147483648 ≤ v ∧ v < 2147483648

/-- A documented value for the item, and for the limits one the kernel accepts. -/
def confValid (e : ConfEnv) (l : ConfLimit) (item v : Int) : Prop :=
  (item = 1 ∧ e.readable = true ∧ 0 ≤ v ∧ v ≤ l.max ∧ l.max ≤ e.nrOpen) ∨
  (item = 2 ∧ e.readable = true ∧ 0 ≤ v ∧ v ≤ l.max ∧ l.max ≤ e.nrOpen) ∨
  (item = 3 ∧ 0 < v) ∨ (item = 4 ∧ (v = 0 ∨ v = 1)) ∨ (item = 5 ∧ (v = 1 ∨ v = 2)) ∨ (item = 6 ∧ (v = 0 ∨ v = 1))

end Verif.Spec
