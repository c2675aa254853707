/-!
# The log (src/vortex.c:85-344, 567-943; src/vortex_ctx.c:783-817)

Simplified: a filter is the set of levels whose names occur in the string (`strstr`); the environment does not change; the text of a
message is a number; a message printed to the console is one call of `fprintf`. A thread that finds the mutex of the log locked
by another thread tries again later. Functions called with NULL do nothing and are left out, and so is the build without log.
-/
namespace Verif.Model

/-- `VortexDebugLevel`, src/vortex_types.h:85-98. -/
inductive LgLevel
  | debug | warning | critical
  deriving DecidableEq, Repr

/-- The levels named by a filter: bits of `debug_filter`. -/
structure LgNames where
  debug : Bool
  warning : Bool
  critical : Bool
  deriving DecidableEq, Repr

/-- `(ctx->debug_filter & log_level) == log_level`, :761. -/
def LgNames.has (f : LgNames) : LgLevel → Bool
  | .debug => f.debug
  | .warning => f.warning
  | .critical => f.critical

/-- `ctx->debug_filter |= …`, :310-316. -/
def LgNames.or (f g : LgNames) : LgNames := ⟨f.debug || g.debug, f.warning || g.warning, f.critical || g.critical⟩

/-- `VORTEX_DEBUG`, `VORTEX_DEBUG2`, `VORTEX_DEBUG_COLOR` and `VORTEX_DEBUG_FILTER`. -/
structure LgEnv where
  debug : Bool
  debug2 : Bool
  color : Bool
  filter : Option LgNames
  deriving DecidableEq, Repr

inductive LgDest
  /-- the handler of `vortex_log_set_handler`, of `vortex_log_set_handler_full`, or the console -/
  | first (h : Nat)
  | second (h : Nat)
  | console (color : Bool)
  deriving DecidableEq, Repr

structure LgOut where
  thread : Nat
  level : LgLevel
  text : Nat
  dest : LgDest
  /-- the text is there: it is prepared, or nobody used the list of arguments before -/
  usable : Bool
  deriving DecidableEq, Repr

structure Lg where
  debug : Bool
  debugChecked : Bool
  debug2 : Bool
  debug2Checked : Bool
  color : Bool
  colorChecked : Bool
  filter : LgNames
  filterOn : Bool
  filterChecked : Bool
  useMutex : Bool
  handler : Option Nat
  handler2 : Option Nat
  prepare : Bool
  /-- who holds `log_mutex` -/
  owner : Option Nat
  /-- messages that are being written: the thread, and whether it took the mutex -/
  frames : List (Nat × Bool)
  /-- threads that wait for a mutex they hold -/
  stuck : List Nat
  /-- every call of a handler and every message printed -/
  out : List LgOut
  freed : Bool
  /-- a mutex was used after it was destroyed -/
  bad : Bool
  deriving DecidableEq, Repr

inductive LgOp
  | enable (b : Bool)
  | enable2 (b : Bool)
  | color (b : Bool)
  | filter (f : Option LgNames)
  | acquire (b : Bool)
  | handler (h : Option Nat)
  | handler2 (h : Option Nat)
  | prepare (b : Bool)
  /-- `_vortex_log`, `_vortex_log2` until the message was given to its handlers -/
  | log (t : Nat) (level : LgLevel) (text : Nat)
  | log2 (t : Nat) (level : LgLevel) (text : Nat)
  /-- the handlers of a message of that thread returned -/
  | ret (t : Nat)
  /-- the last `vortex_ctx_free` -/
  | free
  deriving DecidableEq, Repr

def Lg.init : Lg :=
  ⟨false, false, false, false, false, false, ⟨false, false, false⟩, false, false, false, none, none, false, none, [], [], [], false, false⟩

/-- `vortex_log_is_enabled`, :100-120. -/
def Lg.checkDebug (s : Lg) (env : LgEnv) : Lg := if s.debugChecked then s else { s with debug := env.debug, debugChecked := true }

/-- `vortex_log2_is_enabled`, :134-155. -/
def Lg.checkDebug2 (s : Lg) (env : LgEnv) : Lg := if s.debug2Checked then s else { s with debug2 := env.debug2, debug2Checked := true }

/-- `vortex_color_log_is_enabled`, :225-243. -/
def Lg.checkColor (s : Lg) (env : LgEnv) : Lg := if s.colorChecked then s else { s with color := env.color, colorChecked := true }

/-- `vortex_log_filter_level`, :297-321. -/
def Lg.setFilter (s : Lg) : Option LgNames → Lg
  | none => { s with filterChecked := true, filterOn := false }
  | some f => { s with filterChecked := true, filterOn := true, filter := s.filter.or f }

/-- `vortex_log_filter_is_enabled`, :330-344. -/
def Lg.checkFilter (s : Lg) (env : LgEnv) : Lg := if s.filterChecked then s else s.setFilter env.filter

/-- The message goes to the handlers, or to the console, :772-838. -/
def Lg.deliver (s : Lg) (env : LgEnv) (t : Nat) (level : LgLevel) (text : Nat) : Lg :=
  match s.handler, s.handler2 with
  | none, none => let s := s.checkColor env; { s with out := s.out ++ [⟨t, level, text, .console s.color, true⟩] }
  | some h, none => { s with out := s.out ++ [⟨t, level, text, .first h, true⟩] }
  | none, some h => { s with out := s.out ++ [⟨t, level, text, .second h, true⟩] }
  | some h, some k => { s with out := s.out ++ [⟨t, level, text, .first h, true⟩, ⟨t, level, text, .second k, s.prepare⟩] }

/-- `_vortex_log_common`, :731-846, until the handlers return. -/
def Lg.common (s : Lg) (env : LgEnv) (t : Nat) (level : LgLevel) (text : Nat) : Lg :=
  let s := s.checkDebug env
  if s.debug then
    let s := s.checkFilter env
    if s.filterOn && s.filter.has level then s
    else if s.useMutex then
      match s.owner with
      | some u => if u = t then { s with stuck := t :: s.stuck } else s
      | none => { s with owner := some t, frames := (t, true) :: s.frames }.deliver env t level text
    else { s with frames := (t, false) :: s.frames }.deliver env t level text
  else s

def Lg.step (env : LgEnv) (s : Lg) (op : LgOp) : Lg :=
  if s.freed then s else
  match op with
  -- :167-181
  | .enable b => { s with debug := b, debugChecked := true }
  -- :193-207
  | .enable2 b => { s with debug2 := b, debug2Checked := true }
  -- :263-276
  | .color b => { s with color := b, colorChecked := b }
  | .filter f => s.setFilter f
  -- :594-602
  | .acquire _ => { s with useMutex := true }
  -- :632-642
  | .handler h => { s with handler := h }
  -- :653-664
  | .handler2 h => { s with handler2 := h }
  -- :691-696
  | .prepare b => { s with prepare := b }
  -- :853-875
  | .log t level text => if t ∈ s.stuck then s else s.common env t level text
  -- :885-913
  | .log2 t level text =>
    if t ∈ s.stuck then s else
    let s := s.checkDebug2 env
    if s.debug2 then s.common env t level text else s
  -- :839-841
  | .ret t =>
    if t ∈ s.stuck then s else
    match s.frames.find? (fun f => f.1 == t) with
    | some f => { s with frames := s.frames.erase f, owner := if f.2 then none else s.owner }
    | none => s
  -- src/vortex_ctx.c:804-816: the mutex is destroyed, and then there is a last message
  | .free =>
    let s := (s.checkDebug env).checkFilter env
    { s with freed := true, bad := s.bad || (s.debug && !(s.filterOn && s.filter.has .debug) && s.useMutex) }

def Lg.run (env : LgEnv) (s : Lg) (ops : List LgOp) : Lg := ops.foldl (Lg.step env) s

end Verif.Model
