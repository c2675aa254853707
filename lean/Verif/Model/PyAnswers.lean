/-!
# What handlers written in Python answer

Models the functions that call a Python handler and translate its result:
`py-vortex/src/py_vortex.c` 273-347 (a channel is requested), 353-358 (a channel
is to be closed), `py_vortex_sasl.c` 340-425 (authentication), `py_vortex_tls.c`
276-340 (TLS is requested), 342-472 (certificate and key), with
`py_vortex_handle_and_clear_exception`, `py_vortex.c` 807-935.

Simplified: a handler is what it returns or that it raises; integers and booleans
are integers; objects other than None, integers and byte strings are `other`; a
string is `shared` if somebody else has a reference to it after the call, for
example because it is a constant of the program; memory of an object without
references is free.  The functions for the certificate and for its key are the same.
-/
namespace Verif.Model

/-- A Python object. -/
inductive PhvVal
  | none
  | int (n : Int)
  | str (s : String) (shared : Bool)
  | other
deriving DecidableEq, Repr

/-- How the handler ends. -/
inductive PhvOut
  | ret (v : PhvVal)
  | raised
deriving DecidableEq, Repr

/-- The handlers; for an authentication, what the handler left in
`auth_items["return_password"]` (None before the call, `py_vortex_sasl.c` 374). -/
inductive PhvKind
  | start
  | close
  | accept
  | cert
  | sasl (flag : PhvVal)
deriving DecidableEq, Repr

/-- A handler is due; `listener`: the role of the connection is not that of an initiator. -/
structure PhvCall where
  kind : PhvKind
  out : PhvOut
  listener : Bool
deriving DecidableEq, Repr

/-- What the library is told; `freed`: the text is read after it was released. -/
inductive PhvAns
  | yes
  | no
  | path (p : Option String)
  | secret (p : Option String)
  | freed
deriving DecidableEq, Repr

/-- The answer, whether the handler was called, whether the connection was shut
down, whether the arguments and the result of the call are never released. -/
structure PhvRes where
  ans : PhvAns
  called : Bool
  down : Bool
  kept : Bool
deriving DecidableEq, Repr

/-- `PyArg_Parse (v, "i", …)`: an integer that fits; -1 is an error if an exception is pending. -/
def phvInt (pending : Bool) : PhvVal → Option Int
  | .int n => if n < -2147483648 ∨ 2147483647 < n then none else if n = -1 ∧ pending = true then none else some n
  | _ => none

/-- `PyArg_Parse (v, "s", …)`: a string without zeros. -/
def phvStr : PhvVal → Option (String × Bool)
  | .str s shared => if '\x00' ∈ s.toList then none else some (s, shared)
  | _ => none

/-- The answer yes or no. -/
def phvSay (r : Option Int) : PhvAns :=
  match r with
  | some n => if n = 0 then .no else .yes
  | none => .no

/-- `py_vortex_profile_start`, `py_vortex.c` 273-347. -/
def phvStart (c : PhvCall) : PhvRes :=
  match c.out with
  | .raised => ⟨.no, true, c.listener, false⟩
  | .ret v => ⟨phvSay (phvInt false v), true, false, false⟩

/-- `py_vortex_tls_accept_handler_bridge`, `py_vortex_tls.c` 276-340; 322-330: the
exception of the parser is handled as one of the handler, nothing is released. -/
def phvAccept (c : PhvCall) : PhvRes :=
  match c.out with
  | .raised => ⟨.no, true, c.listener, false⟩
  | .ret v =>
    match phvInt false v with
    | none => ⟨.no, true, c.listener, true⟩
    | some n => ⟨phvSay (some n), true, false, false⟩

/-- `py_vortex_tls_cert_handler_bridge`, `py_vortex_tls.c` 342-406: the result is
released (397) before the text is copied (405). -/
def phvCert (c : PhvCall) : PhvRes :=
  match c.out with
  | .raised => ⟨.path none, true, c.listener, false⟩
  | .ret .none => ⟨.path none, true, false, false⟩
  | .ret v =>
    match phvStr v with
    | none => ⟨.path none, true, c.listener, true⟩
    | some (s, shared) => ⟨if shared then .path (some s) else .freed, true, false, false⟩

/-- `py_vortex_sasl_auth_handler_bridge`, `py_vortex_sasl.c` 340-425: the flag is
read (403), then a password (406) or a status (413); the exception of the parser
stays pending; the result is released (419) before the text is returned (425). -/
def phvSasl (flag : PhvVal) (c : PhvCall) : PhvRes :=
  let down := match c.out with | .raised => c.listener | .ret _ => false
  let f := phvInt false flag
  if f ≠ none ∧ f ≠ some 0 then
    match c.out with
    | .raised => ⟨.secret none, true, down, false⟩
    | .ret v =>
      match phvStr v with
      | none => ⟨.secret none, true, down, false⟩
      | some (s, shared) => ⟨if shared then .secret (some s) else .freed, true, down, false⟩
  else
    match c.out with
    | .raised => ⟨.no, true, down, false⟩
    | .ret v => ⟨phvSay (phvInt (decide (f = none)) v), true, down, false⟩

/-- What happens. -/
def phvCall (c : PhvCall) : PhvRes :=
  match c.kind with
  | .start => phvStart c
  -- `py_vortex_profile_close`, `py_vortex.c` 353-358
  | .close => ⟨.yes, false, false, false⟩
  | .accept => phvAccept c
  | .cert => phvCert c
  | .sasl flag => phvSasl flag c

end Verif.Model
