/-!
Closing a connection, `vortex_connection_close`, src/vortex_connection.c:2827-2923: who gives back which reference.

The flag `close_called` lets one call at a time go on, so one place `pc` is enough for all the threads that call. References are counted;
`none` is the use of a connection whose last reference was given back. The connection may fail at any moment; when it is down, the engine
gives back the references it holds, one by one. Closing the channels is one step that may fail (`vortex_connection_close_all_channels`).
Simplified: the shutdown of a connection that is down already does nothing.
-/
namespace Verif.Model

inductive CloseRole
  | initiator
  /-- accepted by a listener -/
  | accepted
  | master
  deriving DecidableEq, Repr

/-- Where the call that goes on is. -/
inductive ClosePc
  | idle
  /-- the flag is set, :2847-2854 -/
  | flagged
  /-- the connection was found ok, :2857 -/
  | wasOk
  | wasDown
  /-- a reference was taken, :2864 -/
  | held
  /-- the channels could not be closed, the reference was given back, :2875-2879 -/
  | undoing
  /-- all channels are closed, :2875 -/
  | emptied
  /-- the connection was shut down, :2890-2891 -/
  | shut
  /-- `ref_count` was read, :2895 -/
  | counted (n : Nat)
  /-- the reference was given back, :2896 -/
  | released (n : Nat)
  deriving DecidableEq, Repr

/-- A call that returned. -/
inductive CloseRes
  /-- another call goes on or did: axl_true, :2849-2852 -/
  | told
  | closed
  | failed
  deriving DecidableEq, Repr

structure ConnClose where
  role : CloseRole
  ok : Bool
  /-- `close_called` -/
  flag : Bool
  refs : Nat
  /-- references held by the engine -/
  engine : Nat
  /-- references given back by calls that they had not taken -/
  gaveBack : Nat
  pc : ClosePc
  results : List CloseRes
  deriving DecidableEq, Repr

/-- A connection with references of the engine, and one of the user if the user created it. -/
def ConnClose.init (role : CloseRole) (engine : Nat) : ConnClose :=
  ⟨role, true, false, engine + (if role = .initiator then 1 else 0), engine, 0, .idle, []⟩

inductive CloseAct
  | call
  /-- one step of the call that goes on; `closeAll` is the result of closing the channels -/
  | go (closeAll : Bool)
  /-- the connection fails -/
  | fail
  /-- the engine gives back one of its references of a connection that is down -/
  | drop
  deriving DecidableEq, Repr

/-- The call gives back a reference it has not taken and returns axl_true. -/
def ConnClose.giveBack (s : ConnClose) : ConnClose :=
  { s with refs := s.refs - 1, gaveBack := s.gaveBack + 1, pc := .idle, results := s.results ++ [.closed] }

/-- A step of the call that goes on, with the connection still there. -/
def ConnClose.next (s : ConnClose) (closeAll : Bool) : ConnClose :=
  match s.pc with
  | .idle => s
  | .flagged => { s with pc := if s.ok then .wasOk else .wasDown }
  | .wasOk => if s.ok then { s with refs := s.refs + 1, pc := .held } else s.giveBack
  | .wasDown => if s.role = .accepted then { s with pc := .idle, results := s.results ++ [.closed] } else s.giveBack
  | .held => if closeAll then { s with pc := .emptied } else { s with refs := s.refs - 1, pc := .undoing }
  | .undoing => { s with flag := false, pc := .idle, results := s.results ++ [.failed] }
  | .emptied => { s with ok := false, pc := .shut }
  | .shut => { s with pc := .counted s.refs }
  | .counted n => { s with refs := s.refs - 1, pc := .released n }
  | .released _ => if s.role = .initiator then s.giveBack else { s with pc := .idle, results := s.results ++ [.closed] }

def ConnClose.step (s : ConnClose) : CloseAct → Option ConnClose
  | .call =>
    if s.refs = 0 then none
    else if s.flag then some { s with results := s.results ++ [.told] }
    else some { s with flag := true, pc := .flagged }
  | .go closeAll =>
    -- `if ((refcount - 1) == 0) return axl_true`, :2900-2902
    if s.pc = .released 1 then some { s with pc := .idle, results := s.results ++ [.closed] }
    else if s.pc = .idle then some s
    else if s.refs = 0 then none
    else some (s.next closeAll)
  | .fail => some { s with ok := false }
  | .drop =>
    if s.engine = 0 ∨ s.ok = true then some s
    else if s.refs = 0 then none
    else some { s with engine := s.engine - 1, refs := s.refs - 1 }

def ConnClose.run (s : ConnClose) : List CloseAct → Option ConnClose
  | [] => some s
  | a :: as => match s.step a with
    | none => none
    | some r => r.run as

end Verif.Model
