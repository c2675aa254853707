/-!
# What handlers written in Lua answer

Models the functions that call a Lua handler on behalf of the library:
`lua-vortex/src/lua-vortex-channel.c` 367-490 and 498-558, `lua-vortex-ctx.c`
150-211, `lua-vortex-tls.c` 65-140 and 214-425, `lua-vortex-sasl.c` 219-325 and
the functions like them for closed connections, SASL notifications and alive
checks, and `lua_vortex_create_thread`, `lua-vortex.c` 571-633, which gives one
Lua stack to every thread of the system, kept until the context is finished.

Simplified: a handler is what it returns or the error it raises; every object
pushed is consumed by the call, so only its result or error stays; the lock and
what the handler does besides are left out; the functions for the certificate
and for its key are the same.
-/
namespace Verif.Model

/-- A Lua value; a number with the text that `lua_tostring` makes of it. -/
inductive LhvVal
  | nil
  | bool (b : Bool)
  | num (text : String)
  | str (text : String)
  | other
deriving DecidableEq, Repr

/-- How `lua_pcall` ends. -/
inductive LhvOut
  | ret (v : LhvVal)
  | err (v : LhvVal)
deriving DecidableEq, Repr

/-- The handlers. -/
inductive LhvKind
  /-- a handler without result: frames, closed connections, notifications -/
  | note
  /-- a channel is requested by the peer -/
  | start
  /-- an event of the thread pool -/
  | event
  /-- the peer asks for TLS -/
  | accept
  /-- the certificate, or its key, for a server name -/
  | cert
  /-- an authentication -/
  | sasl
deriving DecidableEq, Repr

/-- A handler is due in this thread of the system. -/
structure LhvCall where
  thread : Nat
  kind : LhvKind
  out : LhvOut
deriving DecidableEq, Repr

/-- What the library is told. -/
inductive LhvAns
  | done
  | yes
  | no
  | path (p : Option String)
  | secret (p : String)
deriving DecidableEq, Repr

/-- What happens in a context. -/
inductive LhvOp
  | call (c : LhvCall)
  /-- the context starts to finish, `vortex_is_exiting` -/
  | exit
deriving DecidableEq, Repr

/-- The Lua stack of every thread, bottom first, and `vortex_is_exiting`. -/
structure LhvState where
  stacks : Nat → List LhvVal
  exiting : Bool

/-- What `lua_pcall` leaves: with no result asked for, only an error. -/
def lhvPushed (k : LhvKind) : LhvOut → List LhvVal
  | .ret v => if k = .note then [] else [v]
  | .err v => [v]

/-- `lua_toboolean`. -/
def lhvToBool : Option LhvVal → Bool
  | none => false
  | some .nil => false
  | some (.bool b) => b
  | some _ => true

/-- `lua_isboolean` and then `lua_toboolean`. -/
def lhvBool : Option LhvVal → Bool
  | some (.bool b) => b
  | _ => false

/-- `lua_isstring` and then `lua_tostring`: numbers are converted. -/
def lhvText : Option LhvVal → Option String
  | some (.num t) => some t
  | some (.str t) => some t
  | _ => none

/-- The answer yes or no. -/
def lhvSay (b : Bool) : LhvAns := if b then .yes else .no

/-- The answer, read in the stack after the call. -/
def lhvRead (k : LhvKind) (out : LhvOut) (st : List LhvVal) : LhvAns :=
  match k with
  | .note => .done
  -- lua-vortex-channel.c 547-550
  | .start => match out with
    | .err _ => .no
    | .ret _ => lhvSay (lhvToBool st.getLast?)
  -- lua-vortex-ctx.c 203-204: the first value of the stack
  | .event => lhvSay (lhvBool st.head?)
  -- lua-vortex-tls.c 273-276: after an error too
  | .accept => lhvSay (lhvBool st.getLast?)
  -- lua-vortex-tls.c 344-347 and 415-418: after an error too
  | .cert => .path (lhvText st.getLast?)
  -- lua-vortex-sasl.c 303-325
  | .sasl => match out with
    | .err _ => .no
    | .ret _ => match st.getLast? with
      | some (.bool b) => lhvSay b
      | v => match lhvText v with
        | some t => .secret t
        | none => .no

/-- The answer of a context that is finishing: the handler is not called,
`lua-vortex-channel.c` 516-527, `lua-vortex-ctx.c` 165-175, `lua-vortex-tls.c` 231-247, `lua-vortex-sasl.c` 237-254. -/
def lhvQuit : LhvKind → LhvAns
  | .note => .done
  | .event => .yes
  | .cert => .path none
  | _ => .no

/-- One step, with the answer if there is one. -/
def lhvStep (s : LhvState) : LhvOp → LhvState × List LhvAns
  | .exit => ({ s with exiting := true }, [])
  | .call c =>
    if s.exiting then (s, [lhvQuit c.kind])
    else
      let st := s.stacks c.thread ++ lhvPushed c.kind c.out
      -- nothing is removed from the stack
      ({ s with stacks := fun t => if t = c.thread then st else s.stacks t }, [lhvRead c.kind c.out st])

/-- A run, with all the answers. -/
def lhvRun (ops : List LhvOp) : LhvState × List LhvAns :=
  ops.foldl (fun p op => ((lhvStep p.1 op).1, p.2 ++ (lhvStep p.1 op).2)) (⟨fun _ => [], false⟩, [])

end Verif.Model
