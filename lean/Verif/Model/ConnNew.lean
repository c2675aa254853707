import Verif.Model.Connect
import Verif.Model.GetNext
import Verif.Model.Greetings
/-!
Making a connection: `vortex_connection_do_greetings_exchange`, src/vortex_connection.c:1897-2014, `__vortex_connection_new`, :2027-2140, and
`vortex_connection_new_full_common`, :2142-2248, on top of `tcpConnect` (`Verif.Model.Connect`), `getNext` (`Verif.Model.GetNext`) and
`clientGreeting` (`Verif.Model.Greetings`).

The socket is the script of `getNext`; that of a socket that blocks has no `again`. Simplified: no actions are installed
(`vortex_connection_actions_notify`), no memory shortage, sending the greetings succeeds or shuts the connection down.
-/
namespace Verif.Model

structure GxEnv where
  /-- what the frame reader asks about channel 0 -/
  read : ReadEnv
  /-- `__vortex_connection_parse_greetings`, :701-808: the text is valid; if not, the connection is shut down -/
  parse : List Byte → Bool

/-- The variables of `vortex_connection_do_greetings_exchange`. -/
structure GxState where
  st : ReadState
  /-- `VORTEX_GREETINGS_PENDING_FRAME` -/
  pending : Option VFrame
  script : List Tok
  /-- seconds left -/
  timeout : Int
  /-- what the next calls of `__vortex_connection_wait_on` return, and leave in `timeout` -/
  waits : List (Int × Int)
  /-- `vortex_connection_is_ok`; if not, the socket is closed -/
  isOk : Bool
  /-- not in the code: the frames read so far -/
  got : List Frame

inductive GxEnd
  /-- the greetings are accepted; the octets behind them -/
  | ok (body : List Byte) (got : List Frame) (rest : List Tok)
  /-- the connection is closed -/
  | failed
  /-- undefined behaviour -/
  | outside
  deriving DecidableEq, Repr

inductive GxNext
  /-- the next round of the loop -/
  | go (s : GxState)
  | stop (e : GxEnd)
  /-- waiting -/
  | wait

/-- No frame: src/vortex_connection.c:1933-1991. -/
def gxNull (s : GxState) : GxNext :=
  if 0 < s.timeout ∧ s.isOk = true then
    match s.waits with
    | [] => .wait
    | (ret, left) :: ws =>
      if ret ≤ 0 ∨ left ≤ 0 then .stop .failed
      else .go { s with timeout := left, waits := ws, script := poll s.script }
  -- :1967-1971; the data `"frame"` is never set
  else if s.pending.isSome then .go s
  else .stop .failed

/-- One round of the loop of `vortex_connection_do_greetings_exchange`, :1918-1993, with `vortex_greetings_process`,
src/vortex_greetings.c:271-325. Reading from a connection that is closed gives no frame (src/vortex_frame_factory.c:1333). -/
def gxStep (e : GxEnv) (s : GxState) : GxNext :=
  if s.isOk = false then gxNull s
  else
    match getNext e.read s.st s.script with
    | (.frame f st, r) =>
      match clientGreeting s.pending (VFrame.ofWire f) with
      | (.waiting, p) => gxNull { s with st := st, pending := p, script := r, got := s.got ++ [f] }
      | (.refused, p) => gxNull { s with st := st, pending := p, script := r, got := s.got ++ [f], isOk := false }
      | (.outside, _) => .stop .outside
      | (.accepted body, _) => .stop (if e.parse body then .ok body (s.got ++ [f]) r else .failed)
    | (.pending st, r) => gxNull { s with st := st, script := r }
    | (.shutdown, r) => gxNull { s with script := r, isOk := false }
    | (.outsideLine, _) => .stop .outside
    | (.outsideBuffer, _) => .stop .outside

/-- At most `n` rounds. `none`: not over. -/
def gxRun (e : GxEnv) : (n : Nat) → GxState → Option GxEnd
  | 0, _ => none
  | n + 1, s =>
    match gxStep e s with
    | .go s => gxRun e n s
    | .stop r => some r
    | .wait => none

def GxState.init (script : List Tok) (timeout : Int) (waits : List (Int × Int)) : GxState :=
  ⟨.init, none, script, timeout, waits, true, []⟩

structure NewEnv where
  /-- the context works, host and port are given -/
  started : Bool
  /-- a function to be told is given -/
  threaded : Bool
  tcp : TcpEnv
  /-- `getsockname` and `getnameinfo` succeed, :2091 and :2103 -/
  nameOk : Bool
  /-- `vortex_greetings_client_send` succeeds, :1907 -/
  sendOk : Bool
  gx : GxEnv
  script : List Tok
  waits : List (Int × Int)

inductive NewOut
  | crash
  /-- the connection given to the function, and the one returned (whether it works); whether a socket is left open; the
  content of the greetings -/
  | done (told : Option Bool) (returned : Option Bool) (sock : Bool) (greetings : Option (List Byte))
  deriving DecidableEq, Repr

/-- src/vortex_connection.c:2124-2139 -/
def newReport (e : NewEnv) (ok sock : Bool) (greetings : Option (List Byte)) : NewOut :=
  if e.threaded then .done (some ok) none sock greetings else .done none (some ok) sock greetings

/-- `vortex_connection_new_full_common` and `__vortex_connection_new`, :2027-2248, with at most `n` rounds for the greetings. `none`: not
over. -/
def connNew (n : Nat) (e : NewEnv) : Option NewOut :=
  if e.started = false then some (.done none none false none)
  else
    match tcpConnect e.tcp with
    | none => none
    | some r =>
      if r.ok = false then some (newReport e false false none)
      -- :2091-2106
      else if e.nameOk = false then some (.done none none true none)
      else if e.sendOk = false then some (newReport e false false none)
      else
        match gxRun e.gx n (.init e.script r.left e.waits) with
        | none => none
        | some .outside => some .crash
        | some .failed => some (newReport e false false none)
        | some (.ok body _ _) => some (newReport e true true (some body))

end Verif.Model
