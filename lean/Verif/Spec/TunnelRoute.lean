import Verif.Model.TunnelRoute
/-!
# Hops of a tunnel, and the way through them
-/
namespace Verif.Spec
open Verif.Model

/-- The combinations of the documentation of `vortex_tunnel_settings_add_hop`, in any order. -/
def tunDocumented (items : List (TunItem × String)) : Prop :=
  ∃ h p s, items.Perm [(.fqdn, h), (.port, p)] ∨ items.Perm [(.fqdn, h), (.srv, s)] ∨ items.Perm [(.fqdn, h), (.srv, s), (.port, p)] ∨
    items.Perm [(.ip4, h), (.port, p)] ∨ items.Perm [(.ip6, h), (.port, p)] ∨ items = [(.uri, h)] ∨ items = [(.endpoint, h)]

/-- A documented hop that gives the name or the IPv4 address `h`, and the port `p`. -/
def tunGoes (items : List (TunItem × String)) (h p : String) : Prop :=
  tunDocumented items ∧ (.port, p) ∈ items ∧ ((.fqdn, h) ∈ items ∨ (.ip4, h) ∈ items)

/-- Two items that do not go together: an item with itself, a service or a name of an endpoint with anything, and a domain
name or a service record with an address. -/
def tunClash (i j : TunItem) : Prop :=
  i = j ∨ i = .uri ∨ j = .uri ∨ i = .endpoint ∨ j = .endpoint ∨
    ((i = .fqdn ∨ i = .srv) ∧ (j = .ip4 ∨ j = .ip6)) ∨ ((j = .fqdn ∨ j = .srv) ∧ (i = .ip4 ∨ i = .ip6))

/-- The attributes of a node, of its first child, and so on. -/
def tunLayers : TunNode → List (List (TunItem × String))
  | .mk a [] => [a]
  | .mk a (n :: _) => a :: tunLayers n

/-- The hosts to which connections were made. -/
def tunHosts (evs : List TunEvent) : List (String × String) :=
  evs.filterMap fun | .reached h p => some (h, p) | _ => none

/-- The hosts that were sent a request, and the hops in it. -/
def tunTold (evs : List TunEvent) : List ((String × String) × List (List (TunItem × String))) :=
  evs.filterMap fun | .asked h p c => some ((h, p), tunLayers c) | _ => none

/-- The hosts that took the session for themselves. -/
def tunEnds (evs : List TunEvent) : List (String × String) :=
  evs.filterMap fun | .session h p => some (h, p) | _ => none

/-- What each host on the way should be told: the hops behind it, and the end. -/
def tunShould : List (List (TunItem × String) × (String × String)) → List ((String × String) × List (List (TunItem × String)))
  | [] => []
  | x :: rest => (x.2, rest.map (·.1) ++ [[]]) :: tunShould rest

end Verif.Spec
