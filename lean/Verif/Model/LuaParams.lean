/-!
# Check of the arguments of the Lua bindings

Models `lua_vortex_check_params`, `lua-vortex/src/lua-vortex.c` 362-494, and the functions `*_check_internal` it calls
(`lua-vortex-ctx.c` 403-433, `lua-vortex-connection.c` 826-856, `lua-vortex-channel.c` 560-590, `lua-vortex-frame.c` 208-238,
`lua-vortex-channelpool.c` 294-324).

Simplified: a Lua value is its kind and, if it has a metatable whose field `vortex.type` is a string, that string; the bindings
write at most one `|` in a pattern.
-/
namespace Verif.Model

/-- A value given by the program. -/
inductive LupValue
  | nil
  | bool
  | number
  /-- a string; `numeric`: it reads as a number -/
  | string (numeric : Bool)
  | function
  /-- a table, and `vortex.type` of its metatable -/
  | table (type : Option String)
  /-- a userdata, and `vortex.type` of its metatable -/
  | userdata (type : Option String)
  /-- a thread or a light userdata -/
  | other
deriving DecidableEq, Repr

/-- The letters of a pattern, `lua-vortex.c` 344-356: `t o q c r l s z i b f g d` and `|`. -/
inductive LupLetter
  | ctx
  | connection
  | queue
  | channel
  | frame
  | pool
  | str
  | optStr
  | number
  | bool
  | function
  | optFunction
  | any
  | bar
deriving DecidableEq, Repr

/-- What the check does: accept, return false (the method returns nothing), raise a Lua error. -/
inductive LupResult
  | ok
  | refused
  | raised
deriving DecidableEq, Repr

/-- `lua_vortex_*_check_internal`: no metatable or no `vortex.type` raises an error, another type returns false. -/
def lupObject (name : String) : Option LupValue → LupResult
  | some (.table (some t)) => if t = name then .ok else .refused
  | some (.userdata (some t)) => if t = name then .ok else .refused
  | _ => .raised

/-- `lua_isstring`: numbers are accepted. -/
def lupIsString : Option LupValue → Bool
  | some (.string _) => true
  | some .number => true
  | _ => false

/-- `lua_isnumber`: strings that read as numbers are accepted. -/
def lupIsNumber : Option LupValue → Bool
  | some (.string n) => n
  | some .number => true
  | _ => false

/-- One case of the switch, `lua-vortex.c` 388-475; there is none for `q`. -/
def lupOne (l : LupLetter) (v : Option LupValue) : LupResult :=
  match l with
  | .ctx => lupObject "vortex.ctx" v
  | .connection => lupObject "vortex.connection" v
  | .queue => .ok
  | .channel => lupObject "vortex.channel" v
  | .frame => lupObject "vortex.frame" v
  | .pool => lupObject "vortex.channelpool" v
  | .str => if lupIsString v then .ok else .raised
  | .optStr => if lupIsString v ∨ v = some .nil then .ok else .raised
  | .number => if lupIsNumber v then .ok else .raised
  | .bool => if v = some .bool then .ok else .raised
  | .function => if v = some .function then .ok else .raised
  | .optFunction => if v = some .function ∨ v = some .nil then .ok else .raised
  | .any => .ok
  | .bar => .ok

/-- The second loop, `lua-vortex.c` 385-479: `it` is `iterator`, `desp` as there, `must` is `obligatory`; argument `iterator + desp` counts from 1. -/
def lupLoop (args : List LupValue) : List LupLetter → Nat → Nat → Bool → LupResult × Bool
  | [], _, _, must => (.ok, must)
  | l :: ps, it, desp, must =>
    if it < args.length then
      if l = .bar then lupLoop args ps (it + 1) (desp - 1) false
      else
        match lupOne l args[it + desp - 1]? with
        | .ok => lupLoop args ps (it + 1) desp must
        | e => (e, must)
    else (.ok, must)

/-- `params_expected`, the first loop, `lua-vortex.c` 370-382. -/
def lupExpected : List LupLetter → Nat
  | [] => 0
  | l :: ps => if l = .bar then 0 else lupExpected ps + 1

/-- `lua_vortex_check_params`, `lua-vortex.c` 362-494. -/
def lupCheck (ps : List LupLetter) (args : List LupValue) : LupResult :=
  match lupLoop args ps 0 1 true with
  | (.ok, true) =>
    if args.length < lupExpected ps then .raised
    else if args.length > lupExpected ps then .raised
    else .ok
  | (.ok, false) => .ok
  | (e, _) => e

end Verif.Model
