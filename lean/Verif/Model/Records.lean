import Verif.Model.GetNext
/-!
# Reading frames through TLS or WebSocket (tls/vortex_tls.c, web-socket/vortex_websocket.c, src/vortex_reader.c)

These transports take a whole record (a TLS record, a WebSocket frame) from the socket and hold what was not asked for. OpenSSL and
noPoll are not in the repository; they are taken to do what their documentation says. The script of `GetNext.lean` is read like this:
octets that follow each other are one record, `cut` ends a record, and `again` is a read that finds no complete record
(`SSL_ERROR_WANT_READ`, or -1 from a working noPoll connection), for which both functions return -2
(tls/vortex_tls.c:498-502, web-socket/vortex_websocket.c:390-394); `errno` is then EAGAIN, set by the last `recv` of the
library below. Different from a plain socket, an `again` may be met although the socket was reported as readable: a part of a
record has arrived.
-/
namespace Verif.Model

/-- Records that are empty are not noticed. -/
def skipCuts : List Tok → List Tok
  | .cut :: r => skipCuts r
  | r => r

/-- How many octets of the record at the beginning are left. -/
def recordLeft : List Tok → Nat
  | .byte _ :: r => recordLeft r + 1
  | _ => 0

/-- `SSL_pending`, tls/vortex_tls.c:484, and `nopoll_conn_read_pending`, web-socket/vortex_websocket.c:419, after reads that went from
`before` to `after`: the octets left of a record that was begun. -/
def heldAfter (before after : List Tok) : Nat :=
  match (before.take (before.length - after.length)).getLast? with
  | some (.byte _) => recordLeft after
  | _ => 0

/-- Whether `select` and the like report the socket: something comes behind the octets the transport holds. -/
def sockReadable (held : Nat) (l : List Tok) : Bool := skipCuts (l.drop held) != []

/-- The reader loop with `__vortex_reader_process_socket_pending`, src/vortex_reader.c:646-667. `again`: the data "try_read_pending" is
positive, read once more without waiting; `held`: what the transport holds. Returns also what was not read. The rest as in
`drive`. Not modelled: connections that are unwatched meanwhile, or read by a preread handler. -/
def recDrive {σ : Type} (envOf : σ → ReadEnv) (handle : σ → Frame → Option σ) :
    (calls : Nat) → (again : Bool) → (held : Nat) → σ → ReadState → List Tok → List Frame × σ × Final × List Tok
  | 0, _, _, s0, st, l => ([], s0, .idle st, l)
  | calls + 1, again, held, s0, st, l =>
    if again = false ∧ sockReadable held l = false then ([], s0, .idle st, l)
    else
      match getNext (envOf s0) st l with
      | (.frame f st', r) =>
        match handle s0 f with
        | none => ([f], s0, .shutdown, r)
        | some s1 =>
          let x := recDrive envOf handle calls (decide (heldAfter l r > 0)) (heldAfter l r) s1 st' r
          (f :: x.1, x.2)
      | (.pending st', r) => recDrive envOf handle calls (decide (heldAfter l r > 0)) (heldAfter l r) s0 st' r
      | (.shutdown, r) => ([], s0, .shutdown, r)
      | (.outsideLine, r) => ([], s0, .undefined, r)
      | (.outsideBuffer, r) => ([], s0, .undefined, r)

/-! ## What the functions for TLS return -/

/-- `SSL_get_error`. -/
inductive RecError
  | none
  | wantRead
  | wantWrite
  | wantX509
  | syscall
  | zeroReturn
  | ssl
  | other
  deriving DecidableEq, Repr

/-- Results of successive calls of `SSL_read` or `SSL_write`: the number returned, the error, and whether `errno` is EINTR. -/
structure RecCall where
  res : Int
  err : RecError
  eintr : Bool
  deriving DecidableEq, Repr

/-- `vortex_tls_ssl_read`, tls/vortex_tls.c:446-528; the list is what the calls of the retry loop will find. `none`: they have not ended. -/
def recRead : List RecCall → Option Int
  | [] => none
  | c :: more =>
    match c.err with
    | .none => some c.res
    | .wantWrite => some (-2)
    | .wantRead => some (-2)
    | .wantX509 => some (-2)
    | .syscall => if c.res < 0 then (if c.eintr then recRead more else some (-1)) else some c.res
    | .zeroReturn => some c.res
    | .ssl => some (-1)
    | .other => some (-1)

/-- `vortex_tls_ssl_write`, tls/vortex_tls.c:543-609. -/
def recWrite : List RecCall → Option Int
  | [] => none
  | c :: more =>
    match c.err with
    | .none => some c.res
    | .wantWrite => some (-2)
    | .wantRead => some (-2)
    | .wantX509 => some (-2)
    | .syscall => if c.res < 0 then (if c.eintr then recWrite more else some (-1)) else some (-1)
    | .zeroReturn => some 0
    | .ssl => some (-1)
    | .other => some (-1)

end Verif.Model
