import Verif.Model.CInt
/-!
The timeouts of a context, src/vortex_connection.c:3139-3288: `vortex_connection_timeout`, `vortex_connection_get_timeout`,
`vortex_connection_connect_timeout` and `vortex_connection_get_connect_timeout`.

The values are kept in environment variables of the process, as text; here they are the numbers that the text stands for (`"%ld"`, then
`strtol`). Reading the timeout takes two steps: the value of the context is read before the mutex is locked, :3240, the rest is done with the
mutex, :3243-3256. The other three functions are one step each (they take no mutex in the code). Not modelled: a NULL context, failure of
`setenv`.
-/
namespace Verif.Model

structure ToutCtx where
  /-- `connection_std_timeout` -/
  std : Int
  /-- `connection_timeout_checked` -/
  checked : Bool
  /-- `connection_connect_std_timeout` -/
  cstd : Int
  /-- `connection_connect_timeout_checked` -/
  cchecked : Bool
  deriving DecidableEq, Repr

structure Touts where
  /-- `VORTEX_SYNC_TIMEOUT` -/
  env : Option Int
  /-- `VORTEX_CONNECT_TIMEOUT` -/
  cenv : Option Int
  ctx : Nat → ToutCtx
  /-- for each thread that reads the timeout: the context, and the value it found there -/
  reading : Nat → Option (Nat × Int)

/-- The contexts after `vortex_connection_init`, src/vortex_connection.c:7162; the variables are not set. -/
def Touts.init : Touts := ⟨none, none, fun _ => ⟨60000000, false, 0, false⟩, fun _ => none⟩

/-- `vortex_support_getenv_int`, src/vortex_support.c:600-611: an `int`, 0 if the variable is not set. -/
def toutGetenv (v : Option Int) : Int := match v with | none => 0 | some x => i32 x

def Touts.setCtx (s : Touts) (c : Nat) (x : ToutCtx) : Touts := { s with ctx := fun k => if k = c then x else s.ctx k }

/-- `vortex_connection_timeout`, :3139-3163. -/
def Touts.set (s : Touts) (c : Nat) (v : Int) : Touts :=
  { s.setCtx c { s.ctx c with checked := false } with env := if v = 0 then none else some v }

/-- `vortex_connection_connect_timeout`, :3191-3215. -/
def Touts.setConnect (s : Touts) (c : Nat) (v : Int) : Touts :=
  { s.setCtx c { s.ctx c with cchecked := false } with cenv := if v = 0 then none else some v }

/-- `vortex_connection_get_timeout`, :3239-3240: the value before the mutex is locked. -/
def Touts.begin (s : Touts) (t c : Nat) : Touts :=
  { s with reading := fun k => if k = t then some (c, (s.ctx c).std) else s.reading k }

/-- `vortex_connection_get_timeout`, :3242-3259, with the value `d` found before: the result and the state. -/
def Touts.locked (s : Touts) (c : Nat) (d : Int) : Int × Touts :=
  let x := s.ctx c
  let d := if x.checked then d else toutGetenv s.env
  let x := { x with checked := true }
  if d = 0 then (x.std, s.setCtx c x)
  else if d ≠ x.std then (d, s.setCtx c { x with std := d })
  else (d, s.setCtx c x)

/-- `vortex_connection_get_connect_timeout`, :3273-3288. -/
def Touts.getConnect (s : Touts) (c : Nat) : Int × Touts :=
  let x := s.ctx c
  let x := if x.cchecked then x else { x with cchecked := true, cstd := toutGetenv s.cenv }
  (x.cstd, s.setCtx c x)

inductive ToutAct
  | set (c : Nat) (v : Int)
  | setConnect (c : Nat) (v : Int)
  /-- thread `t` calls `vortex_connection_get_timeout` -/
  | begin (t c : Nat)
  /-- thread `t` returns from it -/
  | end (t : Nat)
  | getConnect (c : Nat)
  deriving DecidableEq, Repr

def Touts.step (s : Touts) : ToutAct → Touts
  | .set c v => s.set c v
  | .setConnect c v => s.setConnect c v
  | .begin t c => match s.reading t with | none => s.begin t c | some _ => s
  | .end t =>
    match s.reading t with
    | none => s
    | some (c, d) => { (s.locked c d).2 with reading := fun k => if k = t then none else s.reading k }
  | .getConnect c => (s.getConnect c).2

def Touts.run (s : Touts) (acts : List ToutAct) : Touts := acts.foldl Touts.step s

/-- What a call of `vortex_connection_get_timeout` returns if nothing else happens meanwhile. -/
def Touts.get (s : Touts) (c : Nat) : Int := (s.locked c (s.ctx c).std).1

end Verif.Model
