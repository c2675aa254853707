/-!
# The limit of sockets (src/vortex_listener.c:495-526, src/vortex_connection.c:7241-7280, 1715-1742)

New sockets come from `accept` (`vortex_listener_accept_connections`) or from `socket` (`vortex_connection_sock_connect_common`);
both are checked with `vortex_connection_check_socket_limit`, which tries to open one socket more. Threads call these functions at
the same time; a new socket stands for the call that made it. The process has `limit` descriptors, and the system returns any that
is free. `others` are descriptors that are not checked: files, listeners, waiting sets. Simplified: what is done with a socket
that was kept (C59, C91), and the values returned to the caller.
-/
namespace Verif.Model

structure Dl where
  /-- how many descriptors the process may have -/
  limit : Nat
  /-- sockets of connections -/
  conns : List Nat
  /-- descriptors of anything else -/
  others : List Nat
  /-- new sockets, before the check -/
  fresh : List Nat
  /-- new sockets while they are checked, with the temporary socket -/
  probing : List (Nat × Nat)
  /-- new sockets whose check failed, before they are closed -/
  doomed : List Nat
  /-- new sockets whose check failed -/
  refused : List Nat
  /-- calls of `accept` and `socket` that failed: nothing was taken from the backlog -/
  failed : Nat
  deriving DecidableEq, Repr

inductive DlOp
  /-- `accept` or `socket`, and the descriptor the system would give -/
  | take (fd : Nat)
  /-- the temporary socket of the check of `fd`, and the descriptor the system would give -/
  | probe (fd temp : Nat)
  /-- the temporary socket is closed, the socket kept -/
  | keep (fd temp : Nat)
  /-- a socket whose check failed is closed -/
  | drop (fd : Nat)
  /-- a connection is closed -/
  | hang (fd : Nat)
  /-- a descriptor that is not checked, opened or closed -/
  | other (fd : Nat)
  | otherEnd (fd : Nat)
  deriving DecidableEq, Repr

def Dl.init (limit : Nat) (others : List Nat) : Dl := ⟨limit, [], others, [], [], [], [], 0⟩

/-- Every descriptor in use: what the system keeps. -/
def Dl.fds (s : Dl) : List Nat := s.conns ++ s.others ++ s.fresh ++ s.doomed ++ s.probing.map Prod.fst ++ s.probing.map Prod.snd

def Dl.step (s : Dl) : DlOp → Dl
  -- vortex_listener.c:502-511, vortex_connection.c:1715-1736
  | .take fd =>
    if s.limit ≤ s.fds.length then { s with failed := s.failed + 1 }
    else if fd ∈ s.fds then s
    else { s with fresh := s.fresh ++ [fd] }
  | .probe fd temp =>
    if fd ∈ s.fresh then
      -- vortex_connection.c:7256-7257
      if s.limit ≤ s.fds.length then
        { s with fresh := s.fresh.erase fd, doomed := s.doomed ++ [fd], refused := s.refused ++ [fd] }
      else if temp ∈ s.fds then s
      else { s with fresh := s.fresh.erase fd, probing := s.probing ++ [(fd, temp)] }
    else s
  -- vortex_connection.c:7262-7272
  | .drop fd => { s with doomed := s.doomed.erase fd }
  -- vortex_connection.c:7276-7279
  | .keep fd temp =>
    if (fd, temp) ∈ s.probing then { s with probing := s.probing.erase (fd, temp), conns := s.conns ++ [fd] } else s
  | .hang fd => { s with conns := s.conns.erase fd }
  | .other fd => if s.limit ≤ s.fds.length ∨ fd ∈ s.fds then s else { s with others := s.others ++ [fd] }
  | .otherEnd fd => { s with others := s.others.erase fd }

def Dl.run (s : Dl) (ops : List DlOp) : Dl := ops.foldl Dl.step s

end Verif.Model
