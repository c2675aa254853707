import Verif.Model.ConnNew
import Verif.Model.Watch
/-!
Reconnecting: `vortex_connection_reconnect`, src/vortex_connection.c:2725-2792. It calls `__vortex_connection_new` for a connection that was in
use before. The fields that belong to interrupted reads are not touched by either of them; they are only released with the connection
(:3688, :3761).
-/
namespace Verif.Model

/-- The fields for interrupted reads after a call of `getNext` that shuts the connection down, src/vortex_frame_factory.c:1600-1920. -/
def readLeft (st : ReadState) (script : List Tok) : ReadState :=
  match st.partialFrame with
  -- :1635-1636, :1660-1661
  | some _ => { st with partialFrame := none }
  | none =>
    let desp := (st.pendingLine.getD []).length
    -- :1344-1349
    if desp ≥ 99 then st
    else
      match readlineLoop (98 - desp) true (st.pendingLine.getD []) script with
      -- :1380-1386, :1672-1677
      | (.again got, _) =>
        { st with
          pendingLine := if got = [] then none else some (got.takeWhile (· ≠ NUL))
          noDataOpers := st.noDataOpers + 1 }
      -- :1356-1357, :1685
      | _ => { st with pendingLine := none, noDataOpers := 0 }

/-- A connection that is shut down. -/
structure OldConn where
  st : ReadState
  /-- `VORTEX_GREETINGS_PENDING_FRAME` -/
  pending : Option VFrame

/-- `vortex_connection_reconnect` for a connection that is shut down, :2725-2792, with `__vortex_connection_new`, :2027-2140. `started` is
not looked at. The channels are released; `e.gx.read` is about the new channel 0 only. -/
def reconnect (n : Nat) (e : NewEnv) (old : OldConn) : Option NewOut :=
  match tcpConnect e.tcp with
  | none => none
  | some r =>
    if r.ok = false then some (newReport e false false none)
    else if e.nameOk = false then some (.done none none true none)
    else if e.sendOk = false then some (newReport e false false none)
    else
      match gxRun e.gx n ⟨old.st, old.pending, e.script, r.left, e.waits, true, []⟩ with
      | none => none
      | some .outside => some .crash
      | some .failed => some (newReport e false false none)
      | some (.ok body _ _) => some (newReport e true true (some body))

/-- What happens to the reader thread (`Verif.Model.Watch`), and a reconnection that succeeds, up to the call of
`vortex_reader_watch_connection` in `vortex_connection_parse_greetings_and_enable`, src/vortex_connection.c:7009-7056. -/
inductive ReconOp
  | other (op : WatchOp)
  | reconnect (c : Nat)

def Watch.reconnect (s : Watch) (c : Nat) : Watch :=
  -- :2736
  if (s.conns c).ok then s
  else (s.upd c fun w => { w with ok := true, refs := w.refs + 1 }).push (.conn c)

def Watch.reconStep (s : Watch) : ReconOp → Option (Watch × List WatchEvent)
  | .other op => s.step op
  | .reconnect c => some (s.reconnect c, [])

def Watch.reconRun (s : Watch) : List ReconOp → Option (Watch × List WatchEvent)
  | [] => some (s, [])
  | op :: ops =>
    match s.reconStep op with
    | none => none
    | some (t, l) => (t.reconRun ops).map fun r => (r.1, l ++ r.2)

end Verif.Model
