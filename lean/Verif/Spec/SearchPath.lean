import Verif.Model.SearchPath
/-!
# What looking for data files should do
-/
namespace Verif.Spec
open Verif.Model

/-- The name of a file in a directory; "." is the current one. -/
def inDir (sep path name : String) : String := if path = "." then name else path ++ sep ++ name

/-- Looking for `name` in `domain` gave `v`, after what was seen in `before`: right if it is a file in a directory someone asked to add to
this domain; and, for each moment before, if a directory whose call to add it to the domain had returned by then has the file, then the
result is in a directory asked for by then: directories added first come first. -/
def spRight (sep : String) (before : List SpEvent) (domain name : String) (fs : String → Bool) (v : Option String) : Prop :=
  (∀ f, v = some f → fs f = true ∧ ∃ p, SpEvent.asked domain p ∈ before ∧ f = inDir sep p name) ∧
  (∀ early late p, before = early ++ late → SpEvent.returned domain p ∈ early → fs (inDir sep p name) = true →
    ∃ q, SpEvent.asked domain q ∈ early ∧ v = some (inDir sep q name))

/-- Asking whether a path was added: what was added is there, what was not asked for is not. -/
def spCheckRight (before : List SpEvent) (domain path : String) (v : Bool) : Prop :=
  (SpEvent.returned domain path ∈ before → v = true) ∧ (v = true → SpEvent.asked domain path ∈ before)

/-- Everything seen about this domain is right. -/
def spAllRight (sep : String) (log : List SpEvent) (domain : String) : Prop :=
  ∀ before after,
    (∀ name fs v, log = before ++ SpEvent.found domain name fs v :: after → spRight sep before domain name fs v) ∧
    (∀ path v, log = before ++ SpEvent.checked domain path v :: after → spCheckRight before domain path v)

/-- No path of this domain is one of the domain "default". -/
def spApart (log : List SpEvent) (domain : String) : Prop :=
  domain = "default" ∨ ∀ p, SpEvent.asked domain p ∈ log → SpEvent.asked "default" p ∉ log

end Verif.Spec
