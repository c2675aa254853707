import Verif.Model.Proxy
/-!
# Specification for connections through others (C63, C64)
-/
namespace Verif.Spec
open Verif.Model

/-- A line of an HTTP answer without its end: no line feed, and it fits into the buffer. -/
def httpLine (l : List Byte) : Prop := (10 : Byte) ∉ l ∧ l.length + 2 ≤ 1023

/-- The answer of a proxy: the status line, the header lines, and an empty line. -/
def httpText (status : List Byte) (headers : List (List Byte)) : List Byte :=
  status ++ lit "\r\n" ++ headers.flatMap (· ++ lit "\r\n") ++ lit "\r\n"

/-- The status line of a proxy that opened the way to the destination. -/
def httpPositive (status : List Byte) : Prop :=
  lit "HTTP/1.0 2" <+: status ∨ lit "HTTP/1.1 2" <+: status

/-- The outcome is reported once: the handler is called once, or the connection is returned. -/
def httpReported (e : HttpEnv) (o : HttpOutcome) : Prop :=
  if e.async then o.notified = 1 else o.notified = 0 ∧ o.returned = true

/-- Both connections pass on what comes: everything received on one was written to the other, in order. -/
def tunnelFaithful (t : Tunnel) : Prop :=
  t.b.written = t.a.received ∧ t.a.written = t.b.received

/-- At each moment nothing else was passed on: what was written is a beginning of what was received. -/
def tunnelSound (t : Tunnel) : Prop :=
  t.b.written <+: t.a.received ∧ t.a.written <+: t.b.received

/-- A read that finds something, or the end of the stream, or an error; not one that finds nothing. -/
def tunnelReadDone : TunnelOp → Prop
  | .readable _ r _ => r ≠ .wouldBlock
  | .reap => True

/-- The write is completed. -/
def tunnelWriteDone : TunnelOp → Prop
  | .readable _ _ w => w = .all
  | .reap => True

/-- The octets that arrived on one of the connections in a history. -/
def tunnelInput (left : Bool) : List TunnelOp → List Byte
  | [] => []
  | .readable l (.octets x) _ :: ops => (if l = left then x else []) ++ tunnelInput left ops
  | _ :: ops => tunnelInput left ops

/-- The first line with its line feed, as far as there is one, and `n` octets of it at most. -/
def firstLine (n : Nat) (s : List Byte) : List Byte := (s.takeWhile (· ≠ 10) ++ (s.dropWhile (· ≠ 10)).take 1).take n

end Verif.Spec
