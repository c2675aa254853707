import Verif.Model.Tls
/-!
# Specification for TLS (C58-C62)
-/
namespace Verif.Spec
open Verif.Model

/-- OpenSSL asks to be called again. -/
def sslAgain (x : SslCall) : Prop := x.ret ≤ 0 ∧ (x.err = .wantRead ∨ x.err = .wantWrite)

/-- The calls end with one that says that the handshake is complete; all calls before asked for another one. -/
def sslDone (calls : List SslCall) : Prop :=
  ∃ before x after, calls = before ++ x :: after ∧ 0 < x.ret ∧ ∀ y ∈ before, sslAgain y

/-- The listener agreed to use TLS; later a handshake was reported as complete, the check of the application, if there is
one, did not object, and with this the connection was secured. -/
def tlsServerDone (es : List TlsEvent) (os : List TlsObs) : Prop :=
  ∃ k i : Nat, k < i ∧ os[k]? = some .proceed ∧ os[i]? = some .secured ∧
    ∃ context call post, es[i]? = some (.readable context call post) ∧ 0 < call.ret ∧ post ≠ some false

/-- The results OpenSSL gives when the peer does not close the TLS session during the handshake: done, or an error with
the value -1. -/
def tlsUsual : TlsEvent → Prop
  | .readable _ call _ => 0 < call.ret ∨ call.ret = -1
  | .start _ _ _ => True

/-- No error but the request to be called again. -/
def tlsNoFailure : TlsEvent → Prop
  | .readable _ call _ => call.ret = -1 → call.err = .wantRead ∨ call.err = .wantWrite
  | .start _ _ _ => True

end Verif.Spec
