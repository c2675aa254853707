/-!
# TLS started by Python programs (C161)

`py_vortex_tls_start_tls` and `py_vortex_tls_do_notify` (py-vortex/src/py_vortex_tls.c:77-242), with `py_vortex_connection_nullify`,
`py_vortex_connection_create` and `py_vortex_connection_dealloc` (py-vortex/src/py_vortex_connection.c:403-413, 1185-1221, 199-244), and
the connection that `vortex_tls_start_negotiation` and `vortex_tls_start_negotiation_sync` give (tls/vortex_tls.c:1507-1544, 2271-2356).

Simplifications: a program with one connection, which after each call goes on with the object it was given; the negotiation itself is an
outcome given beforehand, and it takes over the reference of the connection it replaces; a notification comes before the next call;
memory is always there.
-/
namespace Verif.Model

/-- How a negotiation ends. -/
inductive PtsOutcome
  /-- before TLS began: the same connection, tls/vortex_tls.c:692, 1319 -/
  | refused
  /-- a new connection, with TLS -/
  | secured
  /-- a new connection, which is not usable -/
  | broken
  /-- no answer in time, :2308-2336 -/
  | silent
  deriving DecidableEq, Repr

inductive PtsOp
  /-- `start_tls`, without (`sync`) or with a handler -/
  | start (sync : Bool) (o : PtsOutcome)
  /-- the peer goes away -/
  | fails
  /-- the program gives up its object -/
  | collect
  deriving DecidableEq, Repr

structure PtsState where
  /-- the connection of the object the program has -/
  obj : Option Nat
  ok : Nat → Bool
  tls : Nat → Bool
  /-- references of each connection held for the program -/
  refs : Nat → Int
  /-- the next connection -/
  next : Nat
  /-- what the program was told: success, and the connection of the object it was given -/
  log : List (Bool × Option Nat)

def ptsInit : PtsState := ⟨some 0, fun _ => true, fun _ => false, fun c => if c = 0 then 1 else 0, 1, []⟩

/-- A count is changed. -/
def ptsAdd (refs : Nat → Int) (c : Nat) (d : Int) : Nat → Int := fun k => if k = c then refs k + d else refs k

/-- What the library gives, tls/vortex_tls.c:1516-1544 and 2284-2293: success and the connection; `none`: nothing in time. -/
def ptsLibrary (s : PtsState) (c : Nat) (o : PtsOutcome) : Option (Bool × Nat) :=
  if s.ok c = false then some (false, c)
  else if s.tls c then some (true, c)
  else
    match o with
    | .refused => some (false, c)
    | .secured => some (true, s.next)
    | .broken => some (false, s.next)
    | .silent => none

/-- The state of the library after a negotiation that gave a new connection: the old one is released, the new one comes with a
reference. -/
def ptsReplace (s : PtsState) (c : Nat) (good : Bool) : PtsState :=
  { s with
    refs := ptsAdd (ptsAdd s.refs c (-1)) s.next 1
    ok := fun k => if k = s.next then good else if k = c then false else s.ok k
    tls := fun k => if k = s.next then good else s.tls k
    next := s.next + 1 }

/-- A new object, with a reference of its own, py_vortex_connection.c:1185-1221, and then the release of the reference received,
py_vortex_tls.c:102 and 229. -/
def ptsWrap (s : PtsState) (c : Nat) (good : Bool) : PtsState :=
  { s with obj := some c, refs := ptsAdd (ptsAdd s.refs c 1) c (-1), log := s.log ++ [(good, some c)] }

def ptsStep (s : PtsState) : PtsOp → PtsState
  | .fails =>
    match s.obj with
    | some c => { s with ok := fun k => if k = c then false else s.ok k }
    | none => s
  | .collect =>
    -- py_vortex_connection.c:199-244
    match s.obj with
    | some c => { s with obj := none, refs := ptsAdd s.refs c (-1), ok := fun k => if k = c then false else s.ok k }
    | none => s
  | .start sync o =>
    match s.obj with
    -- an object without connection: the library answers with NULL and an error
    | none => { s with log := s.log ++ [(false, none)] }
    | some c =>
      match ptsLibrary s c o with
      | none =>
        -- without handler: the object was emptied, py_vortex_tls.c:205, and one without connection is made, :221-226
        if sync then { s with obj := none, log := s.log ++ [(false, none)] } else s
      | some (good, d) =>
        if d = c then
          -- :218-219: the object that was emptied is given back
          if sync then { s with obj := none, log := s.log ++ [(good, none)] }
          -- :92-105: a new object, and the one before is emptied
          else ptsWrap s c good
        else ptsWrap (ptsReplace s c good) d good

def ptsRun (s : PtsState) (ops : List PtsOp) : PtsState := ops.foldl ptsStep s

end Verif.Model
