import Verif.Model.Profiles
/-!
# What the application did with a profile

Histories are looked at from their end: newest operation first.
-/
namespace Verif.Spec
open Verif.Model

/-- The operation registers the profile. -/
def registersUri (uri : Nat) : ProfOp → Bool
  | .register u _ _ _ => u == uri
  | .registerExt u _ => u == uri
  | _ => false

/-- There was a registration that no later call took back. -/
def registeredNow (uri : Nat) : List ProfOp → Bool
  | [] => false
  | op :: older => if op = .unregister uri then false else registersUri uri op || registeredNow uri older

/-- The last value given for a setting while the profile was registered, as it is now. -/
def lastSetting {α : Type} (uri : Nat) (gives : ProfOp → Option α) : List ProfOp → Option α
  | [] => none
  | op :: older =>
    if op = .unregister uri then none
    else if registersUri uri op || registeredNow uri older then
      match gives op with
      | some v => some v
      | none => lastSetting uri gives older
    else none

def givesStart (uri : Nat) : ProfOp → Option (Option (Nat × Nat))
  | .register u s _ _ => if u = uri then some s else none
  | _ => none

def givesClose (uri : Nat) : ProfOp → Option (Option (Nat × Nat))
  | .register u _ c _ => if u = uri then some c else none
  | _ => none

def givesReceived (uri : Nat) : ProfOp → Option (Option (Nat × Nat))
  | .register u _ _ v => if u = uri then some v else none
  | .setReceived u v => if u = uri then some v else none
  | _ => none

def givesExt (uri : Nat) : ProfOp → Option (Option (Nat × Nat))
  | .registerExt u e => if u = uri then some e else none
  | _ => none

/-- NULL leaves the MIME type as it is. -/
def givesMime (uri : Nat) : ProfOp → Option Nat
  | .setMime u m _ => if u = uri then m else none
  | _ => none

def givesEncoding (uri : Nat) : ProfOp → Option Nat
  | .setMime u _ t => if u = uri then t else none
  | _ => none

def givesAuto (uri : Nat) : ProfOp → Option Nat
  | .setAuto u v => if u = uri ∧ v ≤ 2 then some v else none
  | _ => none

/-- The last handler for all profiles. -/
def globalNow : List ProfOp → Option (Nat × Nat)
  | [] => none
  | .setGlobal h :: _ => h
  | _ :: older => globalNow older

/-- Who is to decide about the start of a channel: the extended handler of the profile, else its start handler, else the handler for
all profiles, else nobody. -/
def startExpected (uri : Nat) (hist : List ProfOp) : StartWho :=
  if registeredNow uri hist = false then .refused
  else match lastSetting uri (givesExt uri) hist with
    | some (some h) => .extended h
    | _ => match lastSetting uri (givesStart uri) hist with
      | some (some h) => .start h
      | _ => match globalNow hist with
        | some g => .global g
        | none => .accepted

/-- A setting that may be missing. -/
def orNull {α : Type} : Option (Option α) → Option α
  | some v => v
  | none => none

end Verif.Spec

namespace Verif.Spec
open Verif.Model

/-- The record that a thread has a reference to. -/
def holdsRec : ProfPc → Option Nat
  | .holds k _ => some k
  | .calls k => some k
  | _ => none

/-- The thread is changing a record. -/
def updatesRec : ProfPc → Bool
  | .update _ _ _ => true
  | .updateData _ _ => true
  | _ => false

/-- No profile is unregistered while a thread registers it again. -/
def orderlyProf (s : ProfLife) : List ProfAct → Prop
  | [] => True
  | a :: as => (a = .unregister → ∀ i, updatesRec (s.pc i) = false) ∧ ∀ r, s.step a = some r → orderlyProf r.1 as

/-- No profile is registered while it is registered. -/
def freshProf (s : ProfLife) : List ProfAct → Prop
  | [] => True
  | a :: as => (∀ i fn data, a = .register i fn data → s.current = none) ∧ ∀ r, s.step a = some r → freshProf r.1 as

end Verif.Spec
