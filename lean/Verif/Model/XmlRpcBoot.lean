/-!
# Booting XML-RPC channels

`vortex_xml_rpc_boot_channel` (xml-rpc/vortex_xml_rpc.c:659-693), its task `__vortex_xml_rpc_boot_channel_process` (495-620),
`__vortex_xml_rpc_notify` (98-135) and `vortex_xml_rpc_boot_channel_sync` (766-822) with its handler (701-723), for any number of boots on one
connection. Channel `k` is that of boot number `k`.

Simplified: closing a channel succeeds; what is inside the first frame of a channel is one of three cases. Not modelled: the
connection going away (its own reference is not taken by the task), NULL handlers.
-/
namespace Verif.Model

/-- The text of a result. -/
inductive BoMsg
  /-- not written -/
  | unset
  /-- a constant -/
  | static
  /-- allocated text number `i` -/
  | text (i : Nat)
  deriving DecidableEq, Repr

/-- What the handler is called with, or what the synchronous call gives. -/
structure BoResult where
  ok : Bool
  chan : Option Nat
  msg : BoMsg
  deriving DecidableEq, Repr

inductive BoContent
  | error
  /-- exactly `<bootrpy />` -/
  | bootrpy
  | other
  deriving DecidableEq, Repr

/-- The first frame of the channel: a RPY or not, with its content; `none`: nothing came in time. -/
abbrev BoReply := Option (Bool × BoContent)

inductive BoPhase
  | queued
  | created
  | over
  deriving DecidableEq, Repr

inductive BoChan
  | none
  | opened
  | ready
  | closed
  deriving DecidableEq, Repr

/-- The copy of the name of the resource. -/
inductive BoName
  | none
  | copied
  /-- data of the channel, released with it -/
  | attached
  | released
  | lost
  deriving DecidableEq, Repr

inductive BoWait
  | none
  | waiting
  | got
  | gaveUp
  deriving DecidableEq, Repr

structure BoBoot where
  sync : Bool
  phase : BoPhase
  chan : BoChan
  name : BoName
  wait : BoWait
  /-- references to the queue of a synchronous call -/
  refs : Nat
  pushed : Option BoResult
  /-- results told or returned -/
  told : List BoResult
  /-- the first frame, once waited for -/
  reply : Option BoReply
  deriving DecidableEq, Repr

structure BoState where
  boots : List BoBoot
  /-- allocated texts -/
  texts : List Bool
  /-- the text stored in the connection (`vo:xml-rpc:error`) -/
  stored : Option Nat
  deriving DecidableEq, Repr

def BoState.init : BoState := ⟨[], [], none⟩

inductive BoOp
  /-- `up`: the connection is; `name`: the resource is not NULL -/
  | boot (sync up name : Bool)
  /-- the task asks for the channel -/
  | create (k : Nat) (ok : Bool)
  /-- the task has the first frame -/
  | first (k : Nat) (r : BoReply)
  /-- the synchronous call takes the result -/
  | take (k : Nat)
  /-- it waited long enough -/
  | giveUp (k : Nat)
  deriving DecidableEq, Repr

/-- Calling the handler, xml-rpc/vortex_xml_rpc.c:130-131 and 701-722. -/
def BoBoot.notify (b : BoBoot) (r : BoResult) : BoBoot :=
  if b.sync then { b with pushed := some r, refs := b.refs - 1 } else { b with told := b.told ++ [r] }

/-- One step. -/
def BoState.step (s : BoState) : BoOp → BoState
  | .boot sync up name =>
    -- xml-rpc/vortex_xml_rpc.c:777-778, 666-671
    if !up then
      { s with boots := s.boots ++ [⟨sync, .over, .none, .none, .none, 0, none, [⟨false, none, if sync then .unset else .static⟩], none⟩] }
    else { s with boots := s.boots ++ [⟨sync, .queued, .none, if name then .copied else .none, if sync then .waiting else .none, if sync then 2 else 0, none, [], none⟩] }
  | .create k ok =>
    match s.boots[k]? with
    | some b =>
      if b.phase = .queued then
        -- xml-rpc/vortex_xml_rpc.c:518-535
        if ok then { s with boots := s.boots.set k { b with phase := .created, chan := .opened, name := if b.name = .copied then .attached else b.name } }
        else
          -- xml-rpc/vortex_xml_rpc.c:542-562; the text is stored, the one stored before released
          let b' := BoBoot.notify { b with phase := .over, name := if b.name = .copied then .lost else b.name } ⟨false, none, .text s.texts.length⟩
          ⟨s.boots.set k b', (match s.stored with | some i => s.texts.set i false | none => s.texts) ++ [true], some s.texts.length⟩
      else s
    | none => s
  | .first k r =>
    match s.boots[k]? with
    | some b =>
      if b.phase = .created then
        match r with
        -- xml-rpc/vortex_xml_rpc.c:574-579
        | none => { s with boots := s.boots.set k (BoBoot.notify { b with phase := .over, reply := some none } ⟨false, none, .static⟩) }
        -- xml-rpc/vortex_xml_rpc.c:582-590, 617
        | some (t, .error) =>
          let b' := BoBoot.notify { b with phase := .over, reply := some (some (t, .error)), chan := .closed, name := if b.name = .attached then .released else b.name }
            ⟨false, some k, .text s.texts.length⟩
          { s with boots := s.boots.set k b', texts := s.texts ++ [false] }
        -- xml-rpc/vortex_xml_rpc.c:599-610
        | some (t, .other) =>
          let b' := BoBoot.notify { b with phase := .over, reply := some (some (t, .other)), chan := .closed, name := if b.name = .attached then .released else b.name }
            ⟨false, some k, .static⟩
          { s with boots := s.boots.set k b' }
        -- xml-rpc/vortex_xml_rpc.c:614-615, 124
        | some (t, .bootrpy) =>
          { s with boots := s.boots.set k (BoBoot.notify { b with phase := .over, reply := some (some (t, .bootrpy)), chan := .ready } ⟨true, some k, .static⟩) }
      else s
    | none => s
  | .take k =>
    match s.boots[k]? with
    | some b =>
      match b.pushed with
      | some r =>
        if b.wait = .waiting then
          -- xml-rpc/vortex_xml_rpc.c:802-821
          { s with boots := s.boots.set k { b with wait := .got, refs := b.refs - 1, pushed := none, told := b.told ++ [⟨r.ok, if r.ok then r.chan else none, r.msg⟩] } }
        else s
      | none => s
    | none => s
  | .giveUp k =>
    match s.boots[k]? with
    | some b =>
      match b.pushed with
      | none =>
        if b.wait = .waiting then
          -- xml-rpc/vortex_xml_rpc.c:791-799
          { s with boots := s.boots.set k { b with wait := .gaveUp, told := b.told ++ [⟨false, none, .static⟩] } }
        else s
      | some _ => s
    | none => s

def BoState.run : BoState → List BoOp → BoState
  | s, [] => s
  | s, op :: r => (s.step op).run r

end Verif.Model
