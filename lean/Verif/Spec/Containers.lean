import Verif.Model.Containers
/-!
# Specification vocabulary: stack and map
-/
namespace Verif.Spec
open Verif.Model

/-- Calls on the error stack. -/
inductive StackOp
  | push (e : ChanError)
  /-- a push with a NULL message -/
  | pushNull (code : Int)
  /-- the connection is closed by an error -/
  | record (status : Int) (text : String)
  | pop
  deriving DecidableEq, Repr

/-- Histories in which every error pushed has been popped. -/
inductive Balanced : List StackOp → Prop
  | nil : Balanced []
  | ignored (code : Int) : Balanced [.pushNull code]
  | silent (text : String) (status : Int) (h : status = 2 ∨ status = 12) : Balanced [.record status text]
  | pushPop {ops : List StackOp} (e : ChanError) (h : Balanced ops) : Balanced (.push e :: ops ++ [.pop])
  | recordPop {ops : List StackOp} (status : Int) (text : String) (hs : status ≠ 2) (hc : status ≠ 12)
      (h : Balanced ops) : Balanced (.record status text :: ops ++ [.pop])
  | append {a b : List StackOp} (ha : Balanced a) (hb : Balanced b) : Balanced (a ++ b)

/-- The value a key has after a history, read from its end: the last insertion of the key, unless
something took it away later. -/
def binding {κ ν : Type} [DecidableEq κ] (k : κ) : (newestFirst : List (HashOp κ ν)) → Option ν
  | [] => none
  | .insert k' v :: older => if k = k' then some v else binding k older
  | .remove k' :: older => if k = k' then none else binding k older
  | .delete k' :: older => if k = k' then none else binding k older
  | .lookupAndClear k' :: older => if k = k' then none else binding k older
  | .clear :: _ => none
  | _ :: older => binding k older

/-- References held after a history: one at the start. -/
def refsAfter {κ ν : Type} : List (HashOp κ ν) → Int
  | [] => 1
  | .ref :: ops => refsAfter ops + 1
  | .unref :: ops => refsAfter ops - 1
  | _ :: ops => refsAfter ops

/-- The table is used only while somebody holds a reference. -/
def Held {κ ν : Type} (ops : List (HashOp κ ν)) : Prop := ∀ pre post, ops = pre ++ post → 0 < refsAfter pre

/-- Entries inserted, destroyed, released. -/
def inserted {κ ν : Type} (ops : List (HashOp κ ν)) : List (Entry κ ν) :=
  ops.filterMap (fun | .insert k v => some ⟨k, v⟩ | _ => none)
def destroyedIn {κ ν : Type} (es : List (HashEvent κ ν)) : List (Entry κ ν) :=
  es.filterMap (fun | .destroyed e => some e | _ => none)
def releasedIn {κ ν : Type} (es : List (HashEvent κ ν)) : List (Entry κ ν) :=
  es.filterMap (fun | .released e => some e | _ => none)

end Verif.Spec
