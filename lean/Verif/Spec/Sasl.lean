import Verif.Model.Sasl
/-!
# Specification for SASL (C55)
-/
namespace Verif.Spec
open Verif.Model

/-- The identity in the properties read from a message: authentication id (for the anonymous mechanism its token) and
authorization id. -/
def saslIdentity (p : SaslProps) : Option Nat × Option Nat :=
  (match p.token with | some t => some t | none => p.authid, p.authzid)

/-- What a peer tells about itself with a mechanism. -/
def saslShown (m : SaslMech) (p : SaslProps) : SaslProps :=
  match m with
  | .anonymous => ⟨none, none, none, p.token⟩
  | .plain => ⟨p.authid, p.authzid, none, none⟩
  | .cram => ⟨p.authid, none, none, none⟩
  | .digest => ⟨p.authid, p.authzid, p.realm, none⟩
  | .external => ⟨none, p.authzid, none, none⟩

/-- The event starts a mechanism. -/
def SaslStarts (e : Option SaslEvent) : Prop := ∃ m s x, e = some (.start m s x)

/-- The mechanism the peer started last before event `i` is `m`. -/
def saslSpoken (es : List SaslEvent) (i : Nat) (m : SaslMech) : Prop :=
  ∃ j x, j < i ∧ es[j]? = some (.start m true x) ∧ ∀ k, j < k → k < i → ¬ SaslStarts es[k]?

/-- The properties name somebody: by the token, the authorization id or the authentication id, as the mechanism says. -/
def SaslNamed (m : SaslMech) (p : SaslProps) : Prop :=
  match m with
  | .anonymous => ∃ t, p.token = some t
  | .external => ∃ a, p.authzid = some a
  | _ => ∃ a, p.authid = some a

/-- Some event carried a message with these properties, for mechanism `m`, they name somebody and the application accepted them, the peer had
the password if the mechanism works with one, and the event was answered with `complete`. -/
def saslProved (cfg : SaslConfig) (es : List SaslEvent) (as : List SaslAnswer) (m : SaslMech) (p : SaslProps) : Prop :=
  ∃ i : Nat, as[i]? = some .complete ∧ (cfg.accepts m (saslShown m p) = true ∧ SaslNamed m p) ∧
    ∃ proof, ((es[i]? = some (.frame (.blob (.ask p proof))) ∧ saslSpoken es i m) ∨ es[i]? = some (.start m true (.blob (.ask p proof)))) ∧
      (m = .cram ∨ m = .digest → proof = true)

/-- The message is not a wrong proof. (For mechanisms that leave the decision to the application `proof` has no
meaning.) -/
def saslHonest : SaslEvent → Bool
  | .start _ _ (.blob (.ask _ proof)) => proof
  | .frame (.blob (.ask _ proof)) => proof
  | _ => true

end Verif.Spec
