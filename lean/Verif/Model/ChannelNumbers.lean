/-!
# Channel numbers and the channel table of a connection (src/vortex_connection.c)
-/
namespace Verif.Model

/-- `MAX_CHANNELS_NO`, src/vortex_types.h:273. -/
def maxChannels : Int := 2147483647

/-- What of a connection decides channel numbers: role (`initiator`), `last_channel`, and the keys of the
table of channels. -/
structure ConnNumbers where
  initiator : Bool
  last : Int
  used : List Int
  deriving DecidableEq, Repr

/-- New connection: src/vortex_connection.c:967 and :2207. Channel 0 is in the table. -/
def ConnNumbers.new (initiator : Bool) : ConnNumbers := ⟨initiator, if initiator then 1 else 2, [0]⟩

/-- `vortex_connection_channel_exists`, src/vortex_connection.c:4089-4104 (connection connected). -/
def ConnNumbers.exists (c : ConnNumbers) (n : Int) : Bool :=
  if n < 0 then false else if n = 0 then true else c.used.contains n

/-- The value of `last_channel` after one turn of the loop of `vortex_connection_get_next_channel`,
src/vortex_connection.c:4232-4237. The sum is of type int: `none` is its overflow, undefined in C. -/
def ConnNumbers.bump (c : ConnNumbers) : Option Int :=
  if c.last + 2 > 2147483647 then none
  else
    let n := (c.last + 2).tmod maxChannels
    some (if n = 0 then (if c.initiator then 1 else 2) else n)

/-- How `vortex_connection_get_next_channel` ends. -/
inductive NextChannel
  | number (n : Int)
  | overflow
  | unfinished
  deriving DecidableEq, Repr

/-- `vortex_connection_get_next_channel`, src/vortex_connection.c:4218-4248, up to a number of turns of its
loop (which has no limit in the code). -/
def ConnNumbers.next (c : ConnNumbers) : (turns : Nat) → NextChannel × ConnNumbers
  | 0 => (.unfinished, c)
  | turns + 1 =>
    match c.bump with
    | none => (.overflow, c)
    | some n =>
      if c.exists n then { c with last := n }.next turns
      else (.number n, { c with last := n })

/-- `vortex_connection_add_channel_common`, src/vortex_connection.c:4550-4594: refused if the number is in
use. -/
def ConnNumbers.add (c : ConnNumbers) (n : Int) : Bool × ConnNumbers :=
  if c.used.contains n then (false, c) else (true, { c with used := n :: c.used })

/-- `vortex_connection_remove_channel_common`, src/vortex_connection.c:4621-4655. -/
def ConnNumbers.remove (c : ConnNumbers) (n : Int) : ConnNumbers := { c with used := c.used.filter (· != n) }

end Verif.Model
