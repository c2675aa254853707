import Verif.Model.Queue
/-!
# Specification vocabulary: queue discipline
-/
namespace Verif.Spec
open Verif.Model

/-- What a queue should hold: the items pushed in front, latest first, and the others, oldest first. -/
structure Line (α : Type) where
  front : List α
  rest : List α

/-- Everything inside, in the order it should come out. -/
def Line.all {α : Type} (l : Line α) : List α := l.front ++ l.rest

/-- Check a log of events against the discipline: an item popped must be the latest of those pushed in
front or, if there is none, the oldest of the others. `none`: the log breaks it. -/
def follow {α : Type} [DecidableEq α] (l : Line α) : List (AEvent α) → Option (Line α)
  | [] => some l
  | .pushed x :: es => follow { l with rest := l.rest ++ [x] } es
  | .pushedFirst x :: es => follow { l with front := x :: l.front } es
  | .gaveUp :: es => follow l es
  | .popped x :: es =>
    match l.front, l.rest with
    | y :: front, rest => if x = y then follow ⟨front, rest⟩ es else none
    | [], y :: rest => if x = y then follow ⟨[], rest⟩ es else none
    | [], [] => none

/-- Items pushed, and items popped, in order. -/
def pushes {α : Type} : List (AEvent α) → List α
  | [] => []
  | .pushed x :: es => x :: pushes es
  | .pushedFirst x :: es => x :: pushes es
  | _ :: es => pushes es
def pops {α : Type} : List (AEvent α) → List α
  | [] => []
  | .popped x :: es => x :: pops es
  | _ :: es => pops es

/-- Operations on a `VortexQueue` and what they return. -/
inductive QOp (α : Type)
  | push (x : α)
  | headPush (x : α)
  | pushNull
  | pop
  | peek
  | length
  deriving DecidableEq, Repr

inductive QResult (α : Type)
  | ok (b : Bool)
  | item (x : Option α)
  | count (n : Nat)
  deriving DecidableEq, Repr

/-- What the operations should return. -/
def Line.expect {α : Type} (l : Line α) : QOp α → QResult α × Line α
  | .push x => (.ok true, { l with rest := l.rest ++ [x] })
  | .headPush x => (.ok true, { l with front := x :: l.front })
  | .pushNull => (.ok false, l)
  | .pop =>
    match l.front, l.rest with
    | y :: front, rest => (.item (some y), ⟨front, rest⟩)
    | [], y :: rest => (.item (some y), ⟨[], rest⟩)
    | [], [] => (.item none, l)
  | .peek =>
    match l.front, l.rest with
    | y :: _, _ => (.item (some y), l)
    | [], y :: _ => (.item (some y), l)
    | [], [] => (.item none, l)
  | .length => (.count (l.front.length + l.rest.length), l)

/-- The results of a history. -/
def Line.results {α : Type} (l : Line α) : List (QOp α) → List (QResult α)
  | [] => []
  | op :: ops => (l.expect op).1 :: (l.expect op).2.results ops

end Verif.Spec
