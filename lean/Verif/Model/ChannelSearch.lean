/-!
# Looking for channels (src/vortex_connection.c:4289-4465, src/vortex_hash.c:604-707)

Threads look for a channel by its profile or with a function of the application, or count channels of a profile, while channels start and
end. The mutex of the table of channels is held while a table is gone through. Each channel has a name of its own (`id`), as channel
numbers are used again; profiles are numbers. `vortex_connection_foreach_channel` (:4166-4195) goes through the table the same way.
-/
namespace Verif.Model

structure HfChan where
  id : Nat
  num : Nat
  profile : Nat
  deriving DecidableEq, Repr

inductive HfKind
  /-- `vortex_connection_get_channel_by_uri`, `…_by_func`, `vortex_connection_get_channel_count` -/
  | uri (profile : Nat)
  | func
  | count (profile : Nat)
  deriving DecidableEq, Repr

inductive HfPhase
  | running
  | ended
  /-- it waits for the mutex it holds -/
  | stuck
  deriving DecidableEq, Repr

structure HfSearch where
  kind : HfKind
  /-- the table when the search began -/
  snap : List HfChan
  rest : List HfChan
  /-- the channels looked at and the answers -/
  asked : List (HfChan × Bool)
  total : Nat
  result : Option HfChan
  phase : HfPhase
  /-- the thread dropped its reference of the channel found -/
  dropped : Bool
  deriving DecidableEq, Repr

structure Hf where
  table : List HfChan
  next : Nat
  /-- channels whose memory was released -/
  freed : List Nat
  /-- references of channels that threads have -/
  refs : List (Nat × Nat)
  /-- who holds the mutex of the table -/
  owner : Option Nat
  /-- the last search of each thread -/
  search : Nat → Option HfSearch
  /-- a thread used a channel that was released -/
  bad : Bool

def Hf.init : Hf := ⟨[], 0, [], [], none, fun _ => none, false⟩

inductive HfOp
  | start (num profile : Nat)
  | close (num : Nat)
  | begin (t : Nat) (kind : HfKind)
  /-- the search goes on; the function of the application returns `answer`, and may take a reference of the channel -/
  | next (t : Nat) (answer ref : Bool)
  /-- the function uses the connection: `vortex_connection_get_channel`, … -/
  | enter (t : Nat)
  /-- the thread uses the channel it found -/
  | use (t : Nat)
  /-- the thread drops its reference, and does not use the channel any more -/
  | unref (t : Nat)
  deriving DecidableEq, Repr

def Hf.set (s : Hf) (t : Nat) (x : HfSearch) : Hf := { s with search := fun u => if u = t then some x else s.search u }

/-- A channel that is not in the table and of which nobody has a reference is released. -/
def Hf.settle (s : Hf) (id : Nat) : Hf :=
  if (s.table.any fun c => c.id == id) || (s.refs.any fun r => r.2 == id) then s else { s with freed := id :: s.freed }

/-- The answer for a channel: :4265-4281, :4318-4339, :4341-4356. -/
def HfKind.answer (k : HfKind) (c : HfChan) (answer : Bool) : Bool :=
  match k with
  | .uri p => c.profile == p
  | .func => answer
  | .count _ => false

def HfKind.adds (k : HfKind) (c : HfChan) : Nat :=
  match k with
  | .count p => if c.profile = p then 1 else 0
  | _ => 0

def Hf.advance (s : Hf) (t : Nat) (x : HfSearch) (answer ref : Bool) : Hf :=
  match x.rest with
  | [] => { s with owner := none }.set t { x with phase := .ended }
  | c :: rest =>
    let y := { x with rest := rest, asked := x.asked ++ [(c, x.kind.answer c answer)], total := x.total + x.kind.adds c }
    let s := if ref ∧ x.kind = .func then { s with refs := (t, c.id) :: s.refs } else s
    if x.kind.answer c answer then { s with owner := none }.set t { y with result := some c, phase := .ended }
    else s.set t y

def Hf.step (s : Hf) : HfOp → Hf
  | .start num profile =>
    if s.owner = none ∧ !(s.table.any fun c => c.num == num) then
      { s with table := s.table ++ [⟨s.next, num, profile⟩], next := s.next + 1 }
    else s
  -- `vortex_connection_remove_channel`, src/vortex_connection.c:4621-4655
  | .close num =>
    match s.owner, s.table.find? (fun c => c.num == num) with
    | none, some c => { s with table := s.table.filter (fun d => d.id ≠ c.id) }.settle c.id
    | _, _ => s
  | .begin t kind =>
    match s.owner, s.search t with
    | none, none => { s with owner := some t }.set t ⟨kind, s.table, s.table, [], 0, none, .running, false⟩
    | none, some x =>
      if x.phase = .ended then { s with owner := some t }.set t ⟨kind, s.table, s.table, [], 0, none, .running, false⟩ else s
    | _, _ => s
  | .next t answer ref =>
    match s.search t with
    | some x => if x.phase = .running then s.advance t x answer ref else s
    | none => s
  | .enter t =>
    match s.search t with
    | some x => if x.phase = .running ∧ x.kind = .func ∧ x.rest ≠ [] then s.set t { x with phase := .stuck } else s
    | none => s
  | .use t =>
    match s.search t with
    | some x =>
      match x.result with
      | some c => if x.dropped then s else { s with bad := s.bad || s.freed.contains c.id }
      | none => s
    | none => s
  | .unref t =>
    match s.search t with
    | some x =>
      match x.result with
      | some c =>
        if (t, c.id) ∈ s.refs ∧ !x.dropped then
          ({ s with refs := s.refs.filter (· ≠ (t, c.id)) }.set t { x with dropped := true }).settle c.id
        else s
      | none => s
    | none => s

def Hf.run (s : Hf) (ops : List HfOp) : Hf := ops.foldl Hf.step s

end Verif.Model
