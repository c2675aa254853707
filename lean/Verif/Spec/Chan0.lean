import Verif.Model.Chan0
import Verif.Spec.Decimal
/-! What C96 says about the messages of channel 0, after RFC 3080, section 2.3.1, and its DTD (src/vortex-channel.dtd.h). -/
namespace Verif.Spec
open Verif.Model

/-- The XML library finds the name of the root where the text says it is. -/
def XmlNames (parse : List Byte → Option MgmtDoc) : Prop :=
  ∀ body d name, parse body = some d → name ∈ [lit "start", lit "close", lit "error", lit "ok"] → lit "<" ++ name <+: body →
    name <+: d.root.name

/-- The value of an attribute that holds a channel number. -/
def IsChanNumber (num : Nat) (s : List Byte) : Prop := IsNumeral num s ∧ num ≤ 2147483647

/-- The document is a valid request to start a channel; only the first profile offered is described here. -/
structure IsStart (d : MgmtDoc) (num : Nat) (uri : List Byte) (content serverName : Option (List Byte)) (enc : MgmtEncoding) : Prop where
  name : d.root.name = lit "start"
  number : ∃ s, d.root.attr (lit "number") = some s ∧ IsChanNumber num s
  server : d.root.attr (lit "serverName") = serverName
  profile : ∃ p : MgmtNode, d.child = some (p, content) ∧ p.name = lit "profile" ∧ p.attr (lit "uri") = some uri ∧
    ((enc = .none ∧ (p.attr (lit "encoding") = none ∨ p.attr (lit "encoding") = some (lit "none"))) ∨
     (enc = .base64 ∧ p.attr (lit "encoding") = some (lit "base64")))

/-- The document is a valid request to close a channel; without a number, channel 0 (the connection) is meant. -/
structure IsClose (d : MgmtDoc) (num : Nat) : Prop where
  name : d.root.name = lit "close"
  code : (d.root.attr (lit "code")).isSome
  number : (d.root.attr (lit "number") = none ∧ num = 0) ∨ ∃ s, d.root.attr (lit "number") = some s ∧ IsChanNumber num s

/-- The peer is told with an error, or by the end of the connection. -/
def isRefusal (a : MgmtAct) : Prop := a = .refused ∨ a = .refusedShut ∨ a = .shut

/-- The right reaction to a message. -/
def mgmtRight (parse : List Byte → Option MgmtDoc) (body : List Byte) (act : MgmtAct) : Prop :=
  match parse body with
  | none => isRefusal act
  | some d =>
    (∀ num uri content serverName enc, IsStart d num uri content serverName enc → act = .start num (some uri) content serverName enc) ∧
    (∀ num, IsClose d num → act = .close num) ∧
    ((¬ ∃ num uri content serverName enc, IsStart d num uri content serverName enc) → (¬ ∃ num, IsClose d num) → isRefusal act)

end Verif.Spec
