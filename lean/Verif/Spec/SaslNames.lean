import Verif.Model.SaslNames
/-!
# Specification of names of SASL mechanisms in the bindings (C160)
-/
namespace Verif.Spec
open Verif.Model

/-- The names of the mechanisms. -/
def SpnName : SpnMech → String
  | .plain => "plain"
  | .anonymous => "anonymous"
  | .external => "external"
  | .cramMd5 => "cram-md5"
  | .digestMd5 => "digest-md5"
  | .gssapi => "gssapi"
  | .kerberosV4 => "kerberos_v4"

/-- The text is the name of the mechanism, in upper case, lower case or any mix. -/
def SpnNamed (m : SpnMech) (p : List Char) : Prop := p.map Char.toLower = (SpnName m).toList

/-- The text is a profile of the family, written in full. -/
def SpnFull (p : List Char) : Prop := ∃ x, p = "http://iana.org/beep/SASL".toList ++ x

/-- The profile of a mechanism, written in full. -/
def SpnUri : SpnMech → String
  | .plain => "http://iana.org/beep/SASL/PLAIN"
  | .anonymous => "http://iana.org/beep/SASL/ANONYMOUS"
  | .external => "http://iana.org/beep/SASL/EXTERNAL"
  | .cramMd5 => "http://iana.org/beep/SASL/CRAM-MD5"
  | .digestMd5 => "http://iana.org/beep/SASL/DIGEST-MD5"
  | .gssapi => "http://iana.org/beep/SASL/GSSAPI"
  | .kerberosV4 => "http://iana.org/beep/SASL/KERBEROS_V4"

/-- C160 in full: profiles written in full stay as they are, names stand for the profile of their mechanism, other texts are refused. -/
def C160_statement : Prop :=
  ∀ p, (SpnFull p → spnNormalize p = some p) ∧
    (∀ m, SpnNamed m p → spnNormalize p = some (SpnUri m).toList) ∧
    (¬ SpnFull p → (∀ m, ¬ SpnNamed m p) → spnNormalize p = none)

end Verif.Spec
