import Verif.Model.Sender
import Verif.Model.GetNext
/-!
# Two endpoints of this library exchanging data on a channel

The sending half of the channel at one endpoint, the receiving half at the other, and the two
directions of the connection between them as FIFO queues. Each operation is the one of
`Verif.Model.Sender` / `Verif.Model.Window`; SEQ frames travel as octets and go through the header
parser.
-/
namespace Verif.Model

/-- The two halves of a channel and what is in flight between them. -/
structure Peers where
  snd : SendChan
  rcv : RecvWin
  /-- data frames written and not yet received -/
  data : List Frame
  /-- SEQ lines written and not yet received -/
  seqs : List (List Byte)
  deriving DecidableEq, Repr

/-- Two fresh channels. -/
def Peers.init : Peers := ⟨SendChan.init, RecvWin.init, [], []⟩

/-- What can happen. -/
inductive PeersOp
  /-- the sending application queues a message -/
  | queue (m : OutMsg)
  /-- the sender's sequencer visits the channel -/
  | round
  /-- the receiver's reader processes the next data frame -/
  | deliverData
  /-- the sender's reader processes the next SEQ frame -/
  | deliverSeq
  /-- the receiving application configures its window -/
  | setWindow (size : Int)
  deriving DecidableEq, Repr

/-- How the sender's reader sees a SEQ line: `checkHeader` restricted to SEQ frames
(src/vortex_frame_factory.c:1762-1795 and src/vortex_reader.c:383-405): `(ackno, window)`, or `none`
when the connection is shut down. -/
def parseSeq (line : List Byte) : Option (Nat × Int) :=
  match getHeaderData .seq (line.drop 4 ++ [NUL]) ((line.length : Int) - 4) with
  | .ok _ _ f => some (f.seqno, f.size)
  | .sentinel f => some (f.seqno, f.size)
  | _ => none

/-- The frame written by an operation. -/
def Peers.emits (p : Peers) : PeersOp → Option Frame
  | .round => match p.snd.round with
    | some (_, f) => f
    | none => none
  | _ => none

/-- One step on channel number `ch`; `none` when either side shuts the connection down.
`deliverData` is `RecvWin.receive` followed by writing the SEQ frame
(src/vortex_reader.c:129-194); `deliverSeq` is `SendWin.grant`. -/
def Peers.step (ch : Int) (p : Peers) : PeersOp → Option Peers
  | .queue m => some { p with snd := p.snd.queue m }
  | .round =>
    match p.snd.round with
    | none => none
    | some (c, f) => some { p with snd := c, data := p.data ++ f.toList }
  | .setWindow n => some { p with rcv := p.rcv.setWindow n }
  | .deliverData =>
    match p.data with
    | [] => some p
    | f :: fs =>
      match p.rcv.receive f.seqno f.size with
      | none => none
      | some (w, none) => some { p with rcv := w, data := fs }
      | some (w, some (a, n)) =>
        match buildSeq ch a n with
        | none => none
        | some line => some { p with rcv := w, data := fs, seqs := p.seqs ++ [line] }
  | .deliverSeq =>
    match p.seqs with
    | [] => some p
    | line :: rest =>
      match parseSeq line with
      | none => none
      | some (a, n) =>
        match p.snd.win.grant a (u32 n) with
        | none => none
        | some w => some { p with snd := { p.snd with win := w }, seqs := rest }

/-- Run a list of operations. -/
def Peers.run (ch : Int) (p : Peers) : List PeersOp → Option Peers
  | [] => some p
  | op :: ops => match p.step ch op with
    | none => none
    | some p' => p'.run ch ops

end Verif.Model
