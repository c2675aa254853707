import Verif.Model.PullRefs
/-!
# What the application and the library around pull events do
-/
namespace Verif.Spec
open Verif.Model

/-- Somebody that is no event has a reference of this object. -/
def PvOwned (s : Pv) (kind : PvKind) (o : Nat) : Prop := ∃ b, s.objs[o]? = some b ∧ b.kind = kind ∧ 0 < b.others

instance (s : Pv) (kind : PvKind) (o : Nat) : Decidable (PvOwned s kind o) :=
  match h : s.objs[o]? with
  | none => isFalse (by rintro ⟨b, h', _⟩; rw [h] at h'; cases h')
  | some b =>
    if hb : b.kind = kind ∧ 0 < b.others then isTrue ⟨b, h, hb⟩
    else isFalse (by rintro ⟨b', h', hb'⟩; rw [h] at h'; cases h'; exact hb hb')

/-- The application has a reference of this event. -/
def PvHeld (s : Pv) (i : Nat) : Prop := ∃ e, s.events[i]? = some e ∧ 0 < e.held

instance (s : Pv) (i : Nat) : Decidable (PvHeld s i) :=
  match h : s.events[i]? with
  | none => isFalse (by rintro ⟨b, h', _⟩; rw [h] at h'; cases h')
  | some e =>
    if hb : 0 < e.held then isTrue ⟨e, h, hb⟩
    else isFalse (by rintro ⟨b', h', hb'⟩; rw [h] at h'; cases h'; exact hb hb')

/-- References are dropped by who has them; the library tells about a channel of the connection named and about
things it has references of; the application uses events it has references of. -/
def PvAllowed (s : Pv) : PvOp → Prop
  | .otherRef o => PvOwned s .conn o ∨ PvOwned s .chan o ∨ PvOwned s .frame o
  | .otherDrop o => PvOwned s .conn o ∨ PvOwned s .chan o ∨ PvOwned s .frame o
  | .happen _ conn chan frame =>
    PvOwned s .conn conn ∧ (∀ o ∈ chan, PvOwned s .chan o ∧ (s.objs[o]?.map (·.parent)) = some conn) ∧ (∀ o ∈ frame, PvOwned s .frame o)
  | .evRef i => PvHeld s i
  | .evUnref i => PvHeld s i
  | .useConn i => PvHeld s i
  | .useChan i => PvHeld s i
  | .useFrame i => PvHeld s i
  | .useChanConn i => PvHeld s i
  | _ => True

instance (s : Pv) (op : PvOp) : Decidable (PvAllowed s op) := by
  cases op <;> simp only [PvAllowed] <;> infer_instance

/-- All of a history is allowed. -/
def PvObeys (s : Pv) : List PvOp → Prop
  | [] => True
  | op :: ops => PvAllowed s op ∧ PvObeys (s.step op) ops

/-- And the connection of a channel is asked for only if the event has its connection. -/
def PvAsks (s : Pv) : List PvOp → Prop
  | [] => True
  | op :: ops => (∀ (i : Nat) (e : PvEvent), op = .useChanConn i → s.events[i]? = some e → e.conn ≠ none) ∧ PvAsks (s.step op) ops

/-- How many references an event has of an object: none once released. -/
def pvNames (e : PvEvent) (o : Nat) : Nat :=
  if e.frees ≠ 0 then 0
  else (if e.conn = some o then 1 else 0) + (if e.chan = some o then 1 else 0) + (if e.frame = some o then 1 else 0)

/-- How many references events have of an object. -/
def pvHolders (l : List PvEvent) (o : Nat) : Nat := (l.map fun e => pvNames e o).sum

end Verif.Spec
