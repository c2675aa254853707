import Verif.Model.LuaParams
/-!
# Specification of the arguments of the Lua bindings (C144)
-/
namespace Verif.Spec
open Verif.Model

/-- The value is one that the letter stands for. Lua takes numbers for strings, and strings that read as numbers for numbers. -/
inductive LupFits : LupLetter → LupValue → Prop
  | ctx : LupFits .ctx (.userdata (some "vortex.ctx"))
  | connection : LupFits .connection (.userdata (some "vortex.connection"))
  | queue : LupFits .queue (.userdata (some "vortex.asyncqueue"))
  | channel : LupFits .channel (.userdata (some "vortex.channel"))
  | frame : LupFits .frame (.userdata (some "vortex.frame"))
  | pool : LupFits .pool (.userdata (some "vortex.channelpool"))
  | str (n : Bool) : LupFits .str (.string n)
  | strNumber : LupFits .str .number
  | optStr (n : Bool) : LupFits .optStr (.string n)
  | optStrNumber : LupFits .optStr .number
  | optStrNil : LupFits .optStr .nil
  | number : LupFits .number .number
  | numberStr : LupFits .number (.string true)
  | bool : LupFits .bool .bool
  | function : LupFits .function .function
  | optFunction : LupFits .optFunction .function
  | optFunctionNil : LupFits .optFunction .nil
  | any (v : LupValue) : LupFits .any v

/-- The pattern: letters of the arguments a method must have and, if there are any, of those it may have. -/
def LupPattern (must : List LupLetter) : Option (List LupLetter) → List LupLetter
  | none => must
  | some may => must ++ .bar :: may

/-- The letters are letters of arguments. -/
def LupLetters (ps : List LupLetter) : Prop := LupLetter.bar ∉ ps

/-- The arguments are those of the method: not too few, not too many, each of the kind expected. -/
def LupConforms (must : List LupLetter) (may : Option (List LupLetter)) (args : List LupValue) : Prop :=
  must.length ≤ args.length ∧ args.length ≤ (must ++ may.getD []).length ∧
    ∀ (i : Nat) (l : LupLetter) (v : LupValue), (must ++ may.getD [])[i]? = some l → args[i]? = some v → LupFits l v

/-- C144 in full: a method goes on exactly if its arguments are those expected, and otherwise a Lua error says so. -/
def C144_statement : Prop :=
  ∀ (must : List LupLetter) (may : Option (List LupLetter)) (args : List LupValue), LupLetters must → LupLetters (may.getD []) →
    (LupConforms must may args → lupCheck (LupPattern must may) args = .ok) ∧
    (¬ LupConforms must may args → lupCheck (LupPattern must may) args = .raised)

/-- No argument is a table that pretends to be an object of the bindings. -/
def LupHonest (args : List LupValue) : Prop := ∀ t, LupValue.table (some t) ∉ args

/-- The type of object a letter stands for. -/
def LupType : LupLetter → Option String
  | .ctx => some "vortex.ctx"
  | .connection => some "vortex.connection"
  | .channel => some "vortex.channel"
  | .frame => some "vortex.frame"
  | .pool => some "vortex.channelpool"
  | _ => none

/-- The pattern asks for no queue. -/
def LupNoQueue (ps : List LupLetter) : Prop := LupLetter.queue ∉ ps

end Verif.Spec
