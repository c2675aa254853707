import Verif.Model.Frame
/-!
# What replies a peer should see

The application's view: a ledger with one entry per received message, in arrival order, to which
every reply call adds. Only the frame types and octets are taken from the model.
-/
namespace Verif.Spec
open Verif.Model (FType Byte)

/-- One reply call. -/
structure Reply where
  type : FType
  more : Bool
  body : List Byte
  deriving DecidableEq, Repr

/-- A reply that ends the answer to its message. -/
def Reply.final (r : Reply) : Bool := r.type = .nul || ((r.type = .rpy || r.type = .err) && !r.more)

/-- One received message and the replies given so far. -/
structure Entry where
  msgno : Int
  replies : List Reply
  deriving DecidableEq, Repr

def Entry.complete (e : Entry) : Bool := e.replies.any (·.final)

/-- A message as the sending thread gets it. -/
structure Answer where
  type : FType
  msgno : Int
  /-- answer number, 0 if not ANS -/
  ansno : Int
  more : Bool
  octets : List Byte
  deriving DecidableEq, Repr

/-- The answers for one message: ANS numbered from `k`; the MIME headers `hdr` come before every
body, except when continuing a reply of which the previous part said that more follows. -/
def answersFrom (hdr : List Byte) (m : Int) (k : Nat) (continued : Bool) : List Reply → List Answer
  | [] => []
  | r :: rs =>
    { type := r.type, msgno := m, ansno := if r.type = .ans then (k : Int) else 0, more := r.more
      octets := (if continued then [] else hdr) ++ r.body } ::
    answersFrom hdr m (if r.type = .ans then k + 1 else k) r.more rs

def Entry.answers (hdr : List Byte) (e : Entry) : List Answer := answersFrom hdr e.msgno 0 false e.replies

/-- What may be sent: the answers to the messages in order, up to and including the first message
that is not completely answered. -/
def expected (hdr : List Byte) : List Entry → List Answer
  | [] => []
  | e :: es => if e.complete then e.answers hdr ++ expected hdr es else e.answers hdr

/-- The ledger and whether a message is partially received. -/
structure Book where
  ledger : List Entry
  receiving : Bool
  deriving DecidableEq, Repr

def Book.init : Book := ⟨[], false⟩

/-- A frame of a message arrives: the first one opens an entry. -/
def Book.frame (b : Book) (more : Bool) (m : Int) : Book :=
  { ledger := if b.receiving then b.ledger else b.ledger ++ [⟨m, []⟩], receiving := more }

/-- Adds a reply to the last entry with number `m`. -/
def addReply (m : Int) (r : Reply) : List Entry → List Entry
  | [] => []
  | e :: es =>
    if es.any (·.msgno = m) then e :: addReply m r es
    else if e.msgno = m then { e with replies := e.replies ++ [r] } :: es
    else e :: es

def Book.reply (b : Book) (m : Int) (r : Reply) : Book := { b with ledger := addReply m r b.ledger }

/-- `r` may follow the replies already given to a message: a reply (RPY or ERR) in one or several parts,
or answers and then a NUL. -/
def Follows (replies : List Reply) (r : Reply) : Prop :=
  match r.type with
  | .rpy | .err => ∀ x ∈ replies, x.type = r.type ∧ x.more = true
  | .ans | .nul => r.more = false ∧ ∀ x ∈ replies, x.type = .ans
  | _ => False

/-- The application may reply `r` to message `m`: the last message received with that number is not
completely answered and `r` may follow what was answered. At most 2^31-1 answers. -/
def Allowed (L : List Entry) (m : Int) (r : Reply) : Prop :=
  ∃ A e B, L = A ++ e :: B ∧ e.msgno = m ∧ (∀ x ∈ B, x.msgno ≠ m) ∧ e.complete = false ∧
    Follows e.replies r ∧ e.replies.length < 2147483647

/-- As `Allowed`; and further parts of a reply in several parts are given only when all the messages
received before are completely answered. -/
def AllowedInTurn (L : List Entry) (m : Int) (r : Reply) : Prop :=
  ∃ A e B, L = A ++ e :: B ∧ e.msgno = m ∧ (∀ x ∈ B, x.msgno ≠ m) ∧ e.complete = false ∧
    Follows e.replies r ∧ e.replies.length < 2147483647 ∧
    (r.type = .rpy ∨ r.type = .err → e.replies ≠ [] → ∀ x ∈ A, x.complete = true)

/-- Checks answer numbering over what is sent on a channel: `next` is the number the next ANS must
carry and `cur` the message being answered with ANS, if any. -/
def ansNumbering (next : Nat) (cur : Option Int) : List Answer → Prop
  | [] => True
  | a :: as =>
    (cur = none ∨ cur = some a.msgno) ∧
    match a.type with
    | .ans => a.ansno = next ∧ ansNumbering (next + 1) (some a.msgno) as
    | .nul => ansNumbering 0 none as
    | _ => cur = none ∧ ansNumbering 0 none as

end Verif.Spec
