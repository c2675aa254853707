import Verif.Model.CInt
/-!
# Fault strings of XML-RPC replies (xml-rpc/vortex_xml_rpc.c)

The functions `vortex_xml_rpc_unmarshall_*_sync` hand the fault string of a reply to the caller, and also keep it among the data of the
channel. Not modelled: comparing keys of the hash with memory already released other than of an equal key.
-/
namespace Verif.Model

/-- A copy of a fault string (`axl_strdup`), xml-rpc/vortex_xml_rpc.c:2420-2422. -/
structure FaultCell where
  text : List Byte
  live : Bool
  deriving DecidableEq, Repr

/-- What is stored under a key of the channel: something the library or the application stored, or a fault string. -/
inductive FaultValue
  | data (n : Nat)
  | text (cell : Nat)
  deriving DecidableEq, Repr

/-- An entry of the hash of the channel; `own` is released with it (the key, with `axl_free` as destroy function). -/
structure FaultEntry where
  key : List Byte
  own : Option Nat
  value : FaultValue
  deriving DecidableEq, Repr

structure FaultChan where
  /-- `channel->data`, src/vortex_channel.c:1622 -/
  data : List FaultEntry := []
  cells : List FaultCell := []
  /-- memory was used after it was released, or released twice -/
  bad : Bool := false
  deriving DecidableEq, Repr

inductive FaultOp
  /-- `vortex_xml_rpc_unmarshall_*_sync` with a reply that holds a fault, and a place for the fault string -/
  | fault (text : List Byte)
  /-- the caller reads the string -/
  | use (cell : Nat)
  /-- the caller releases the string, as documented (xml-rpc/vortex_xml_rpc.c:2457-2460) -/
  | free (cell : Nat)
  /-- `vortex_channel_set_data`, src/vortex_channel.c:4836-4845 -/
  | set (key : List Byte) (n : Nat)
  /-- `vortex_channel_set_data` with NULL as value -/
  | unset (key : List Byte)
  /-- the channel is released, and its data with it: `vortex_hash_destroy`, src/vortex_hash.c:533-567 -/
  | close
  deriving DecidableEq, Repr

/-- `axl_free`. -/
def FaultChan.release (s : FaultChan) (c : Nat) : FaultChan :=
  match s.cells[c]? with
  | none => { s with bad := true }
  | some x => if x.live then { s with cells := s.cells.set c { x with live := false } } else { s with bad := true }

/-- An entry goes: `axl_hash_deferred_cleanup` (axl), called from src/vortex_hash.c:297. -/
def FaultChan.drop (s : FaultChan) (e : FaultEntry) : FaultChan :=
  match e.own with
  | none => s
  | some c => s.release c

/-- `vortex_hash_replace_full`, src/vortex_hash.c:270-303: the entry of an equal key is removed, and released after the new one is in. -/
def FaultChan.store (s : FaultChan) (e : FaultEntry) : FaultChan :=
  let s1 := { s with data := e :: s.data.filter (fun x => decide (x.key ≠ e.key)) }
  match s.data.find? (fun x => decide (x.key = e.key)) with
  | none => s1
  | some x => s1.drop x

/-- `vortex_channel_get_data`, src/vortex_channel.c:4946-4957. -/
def FaultChan.get (s : FaultChan) (key : List Byte) : Option FaultValue :=
  (s.data.find? (fun x => decide (x.key = key))).map (·.value)

def FaultChan.step (s : FaultChan) : FaultOp → FaultChan
  -- `__vortex_xml_rpc_unmarshall_common_sync`, xml-rpc/vortex_xml_rpc.c:2387-2436
  | .fault t =>
    let c := s.cells.length
    FaultChan.store { s with cells := s.cells ++ [⟨t, true⟩] } ⟨t, some c, .text c⟩
  | .use c =>
    match s.cells[c]? with
    | none => { s with bad := true }
    | some x => if x.live then s else { s with bad := true }
  | .free c => s.release c
  -- `vortex_channel_set_data_full`, src/vortex_channel.c:4883-4904
  | .set k n => s.store ⟨k, none, .data n⟩
  -- `vortex_hash_remove`, src/vortex_hash.c:494-523
  | .unset k =>
    let s1 := { s with data := s.data.filter (fun x => decide (x.key ≠ k)) }
    match s.data.find? (fun x => decide (x.key = k)) with
    | none => s1
    | some x => s1.drop x
  | .close => s.data.foldl FaultChan.drop { s with data := [] }

def faultRun (ops : List FaultOp) : FaultChan := ops.foldl FaultChan.step {}

end Verif.Model
