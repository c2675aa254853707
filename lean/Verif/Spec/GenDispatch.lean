import Verif.Model.GenDispatch
/-!
# The dispatcher and the client of an interface (C137)
-/
namespace Verif.Spec
open Verif.Model

/-- A type of the interface and the type of XML-RPC its values have. -/
inductive GdStands (i : GdInterface) : List Byte → XsType → Prop
  | int : GdStands i (lit "int") .int
  | bool : GdStands i (lit "bool") .boolean
  | string : GdStands i (lit "string") .string
  | double : GdStands i (lit "double") .double
  | base64 : GdStands i (lit "base64") .base64
  | array {t : List Byte} : t ∈ i.arrays → GdStands i t .array
  | struct {t : List Byte} : t ∈ i.structs → GdStands i t .struct

/-- Parameters and values, one by one. -/
inductive GdFits (i : GdInterface) : List (List Byte) → List (Option (XsType × Int)) → Prop
  | nil : GdFits i [] []
  | cons {t : List Byte} {x : XsType} {v : Int} {ts : List (List Byte)} {vs : List (Option (XsType × Int))} :
      GdStands i t x → GdFits i ts vs → GdFits i (t :: ts) (some (x, v) :: vs)

/-- The name a service has in calls: the one given by `method_name`, if it is given. -/
def GdNamed (s : GdService) (n : List Byte) : Prop := s.method = some n ∨ s.method = none ∧ s.name = n

/-- The call is one of the service: its name, and values of the types of its parameters. -/
def GdAsks (i : GdInterface) (c : XsCall) (s : GdService) : Prop := GdNamed s c.name ∧ GdFits i s.types c.params

/-- The service is offered on channels of this resource: it was declared for it, or it was declared for none. -/
def GdOffered (s : GdService) (on : Option (List Byte)) : Prop := s.resource = none ∨ s.resource = on

/-- The names of types are used once: no array or struct has the name of a type of the language, or of another. -/
def GdTidy (i : GdInterface) : Prop :=
  (∀ t, t ∈ i.arrays ∨ t ∈ i.structs → t ≠ lit "int" ∧ t ≠ lit "bool" ∧ t ≠ lit "string" ∧ t ≠ lit "double" ∧ t ≠ lit "base64") ∧ ∀ t, t ∈ i.arrays → t ∉ i.structs

/-- Every type that is used is one of the language or declared. -/
def GdKnown (i : GdInterface) : Prop := ∀ s ∈ i.services, ∀ t ∈ s.types, ∃ x, GdStands i t x

/-- The order of resources in the hash: any that has them all. -/
def GdOrder (i : GdInterface) (order : List (List Byte)) : Prop := ∀ r, r ∈ order ↔ ∃ s ∈ i.services, s.resource = some r

/-- Two services that the interface tells apart: by name, by resource or by the types of their parameters. -/
def GdApart (i : GdInterface) : Prop :=
  ∀ (a b : Nat) (s t : GdService), i.services[a]? = some s → i.services[b]? = some t → s.name = t.name → s.method = t.method → s.resource = t.resource → s.types = t.types → a = b

/-- Stronger: no call is one of two services that are declared for the same resource. -/
def GdClear (i : GdInterface) : Prop :=
  ∀ (a b : Nat) (s t : GdService) (c : XsCall), i.services[a]? = some s → i.services[b]? = some t → s.resource = t.resource → GdAsks i c s → GdAsks i c t → a = b

/-- A name in capitals, with `_` for what is neither letter nor digit. -/
def gdPlain (n : List Byte) : List Byte :=
  n.map fun b =>
    if 97 ≤ b.toNat ∧ b.toNat ≤ 122 then b - 32 else if 65 ≤ b.toNat ∧ b.toNat ≤ 90 ∨ 48 ≤ b.toNat ∧ b.toNat ≤ 57 then b else 95

/-- Where the services are that answer on channels of this resource: at the resource if there is one for it, otherwise at no resource. -/
def GdSection (i : GdInterface) (on : Option (List Byte)) (s : GdService) : Prop :=
  (s.resource = on ∧ on ≠ none) ∨ (s.resource = none ∧ ∀ t ∈ i.services, ∀ r, t.resource = some r → on ≠ some r)

/-- The whole property: the client of every service makes its call, the service that it was made for runs, and the services have files of their own. -/
def C137_statement : Prop :=
  ∀ (i : GdInterface) (order : List (List Byte)), GdTidy i → GdKnown i → GdApart i → GdOrder i order →
    (∀ (n : Nat) (s : GdService) (on : Option (List Byte)) (values : List Int), i.services[n]? = some s → GdOffered s on → values.length = s.types.length →
      ∃ c, gdCall i s values = some c ∧ gdServe i order on c = .runs n) ∧
    (∀ (a b : Nat) (s t : GdService), i.services[a]? = some s → i.services[b]? = some t → gdFile i.component s = gdFile i.component t → a = b)

end Verif.Spec
