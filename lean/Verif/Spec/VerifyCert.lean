import Verif.Model.VerifyCert
/-!
# What a verified certificate means (C117)
-/
namespace Verif.Spec
open Verif.Model

/-- The connection uses TLS, and OpenSSL accepted a certificate whose common name is the server name of the connection. -/
structure Certified (c : VcConn) : Prop where
  secured : c.secured = true ∧ c.ssl = true
  trusted : c.verified = true
  named : ∃ n rest, c.peer = some (n :: rest) ∧ c.serverName = some n

/-- The certificate of the peer, if there is one, has a common name of at most 511 octets and without NUL. -/
def PlainName (c : VcConn) : Prop := ∀ names, c.peer = some names → ∃ n rest, names = n :: rest ∧ n.length ≤ 511 ∧ (0 : Byte) ∉ n

end Verif.Spec
