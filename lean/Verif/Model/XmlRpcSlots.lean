import Verif.Model.CInt
/-!
# Parameters of a call and items of an array (xml-rpc/vortex_xml_rpc_types.c)

Values are represented by numbers: which object it is. `freed` lists the objects released so far.
-/
namespace Verif.Model

/-- `XmlRpcMethodCall` (:51-108) and `XmlRpcArray` (:222-244): `count` places, of which the first `added` are in use
according to `added_count`. -/
structure XSlots where
  added : Nat
  places : List (Option Nat)
  freed : List Nat
  deriving DecidableEq, Repr

/-- `vortex_xml_rpc_array_new`, xml-rpc/vortex_xml_rpc_types.c:2994-3012, and `vortex_xml_rpc_method_call_new`, :296-321:
memory from `axl_new` is zero. -/
def XSlots.new (count : Nat) : XSlots := ⟨0, List.replicate count none, []⟩

/-- `count`. -/
def XSlots.count (a : XSlots) : Nat := a.places.length

/-- `vortex_xml_rpc_array_add`, :3173-3185, and `vortex_xml_rpc_method_call_add_value`, :874-889. The flag: the value was
taken. (The array function returns nothing.) -/
def XSlots.add (a : XSlots) (v : Nat) : XSlots × Bool :=
  if a.added < a.count then ({ a with places := a.places.set a.added (some v), added := a.added + 1 }, true) else (a, false)

/-- `vortex_xml_rpc_array_set`, :3145-3157. -/
def XSlots.arraySet (a : XSlots) (i v : Nat) : XSlots × Bool :=
  if i < a.count then ({ a with places := a.places.set i (some v) }, true) else (a, false)

/-- `vortex_xml_rpc_method_call_set_value`, :925-950: the value replaced is released. -/
def XSlots.callSet (a : XSlots) (i v : Nat) : XSlots × Bool :=
  if i < a.count then
    ({ a with places := a.places.set i (some v)
              freed := match a.places[i]?.getD none with
                | some old => a.freed ++ [old]
                | none => a.freed }, true)
  else (a, false)

/-- `vortex_xml_rpc_array_get`, :3122-3130. -/
def XSlots.arrayGet (a : XSlots) (i : Nat) : Option Nat := if i < a.added then a.places[i]?.getD none else none

/-- `vortex_xml_rpc_method_call_get_param_value`, :1101-1109. -/
def XSlots.callGet (a : XSlots) (i : Nat) : Option Nat := a.places[i]?.getD none

/-- `vortex_xml_rpc_array_free` (last reference), :3041-3064, and `vortex_xml_rpc_method_call_free`, :1583-1603: the
objects released in the end. -/
def XSlots.free (a : XSlots) : List Nat := a.freed ++ (a.places.take a.added).filterMap id

/-- `vortex_xml_rpc_method_call_marshall` accepts the call, :1513. -/
def XSlots.callReady (a : XSlots) : Bool := a.count = a.added

/-- Values given to a container, one after the other: added (`none`) or set at a position. -/
def XSlots.run (set : XSlots → Nat → Nat → XSlots × Bool) (a : XSlots) (given : List Nat) :
    List (Option Nat × Nat) → XSlots × List Nat
  | [] => (a, given)
  | (p, v) :: ops =>
    let r := match p with
      | none => a.add v
      | some i => set a i v
    XSlots.run set r.1 (if r.2 then given ++ [v] else given) ops

end Verif.Model
