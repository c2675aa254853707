/-!
# The way of a TUNNEL connection (tunnel/vortex_tunnel.c)

The settings of a tunnel, the connection to the first host, and what each host does with the request it gets. The XML
library is not in the repository: a node that is dumped and parsed again is taken to be the same node, and content that
does not parse is an input of its own. The function that may be installed to replace the settings
(`vortex_tunnel_set_resolver`) is not modelled. What happens to the octets afterwards is in `Proxy.lean`.
-/
namespace Verif.Model

/-- `VortexTunnelItem`, tunnel/vortex_tunnel.h, and the attributes of a `<tunnel>` element. -/
inductive TunItem
  | fqdn | port | ip4 | ip6 | srv | uri | endpoint
  deriving DecidableEq, Repr

/-- A `<tunnel>` element: its attributes and its children. -/
inductive TunNode
  | mk (attrs : List (TunItem × String)) (kids : List TunNode)

def TunNode.attrs : TunNode → List (TunItem × String)
  | .mk a _ => a

def TunNode.kids : TunNode → List TunNode
  | .mk _ k => k

/-- The attributes that must not be there when one is added, tunnel/vortex_tunnel.c:262-332. -/
def TunItem.refusedBy : TunItem → List TunItem
  | .fqdn => [.fqdn, .ip4, .ip6, .uri, .endpoint]
  | .port => [.port, .uri, .endpoint]
  | .ip4 => [.ip4, .fqdn, .srv, .endpoint, .uri]
  | .ip6 => [.ip6, .fqdn, .srv, .endpoint, .uri]
  | .srv => [.srv, .ip4, .ip6, .endpoint, .uri]
  | .uri => [.uri, .fqdn, .port, .srv, .ip4, .ip6, .endpoint]
  | .endpoint => [.uri, .fqdn, .port, .srv, .ip4, .ip6, .endpoint]

/-- The loop over the arguments, tunnel/vortex_tunnel.c:252-336. `none`: `wrong_tunnel_conf`. -/
def tunHopFrom (acc : List (TunItem × String)) : List (TunItem × String) → Option (List (TunItem × String))
  | [] => some acc
  | (i, v) :: rest => if acc.any (fun a => i.refusedBy.contains a.1) then none else tunHopFrom (acc ++ [(i, v)]) rest

/-- `vortex_tunnel_settings_add_hop`, tunnel/vortex_tunnel.c:226-359: the new hop becomes the root; a wrong one is logged and
nothing is changed. -/
def tunAdd (root : TunNode) (items : List (TunItem × String)) : TunNode :=
  match tunHopFrom [] items with
  | some a => .mk a [root]
  | none => root

/-- `vortex_tunnel_settings_new`, tunnel/vortex_tunnel.c:83-103, and then the hops added in this order. -/
def tunSettings (added : List (List (TunItem × String))) : TunNode := added.foldl tunAdd (.mk [] [])

def tunAttr (i : TunItem) (attrs : List (TunItem × String)) : Option String := (attrs.find? (fun a => a.1 == i)).map (·.2)

/-- Host and port of the next hop, tunnel/vortex_tunnel.c:445-478. -/
def tunTarget (attrs : List (TunItem × String)) : Option (String × String) :=
  match (match tunAttr .fqdn attrs with | some h => some h | none => tunAttr .ip4 attrs), tunAttr .port attrs with
  | some h, some p => some (h, p)
  | _, _ => none

/-- A host: whether it has the TUNNEL profile, and what its accept handler says (no handler: `true`). -/
structure TunHost where
  profile : Bool
  accept : Bool
  deriving DecidableEq, Repr

/-- The hosts that can be connected to, by name and port (the same for everybody). -/
abbrev TunWorld := String → String → Option TunHost

inductive TunEvent
  /-- a connection to the host was made -/
  | reached (h p : String)
  /-- it was sent the request -/
  | asked (h p : String) (content : TunNode)
  /-- the host accepted the session for itself -/
  | session (h p : String)

mutual
/-- `__vortex_tunnel_new_common`, tunnel/vortex_tunnel.c:405-684, up to the reply of the next host (`true`: `<ok />`). -/
def tunOpen (w : TunWorld) : TunNode → List TunEvent × Bool
  | .mk _ [] => ([], false)
  | .mk attrs (next :: _) =>
    match tunTarget attrs with
    | none => ([], false)
    | some (h, p) =>
      match w h p with
      | none => ([], false)
      | some host =>
        if host.profile then (.reached h p :: .asked h p next :: (tunServe w h p host next).1, (tunServe w h p host next).2)
        else ([.reached h p], false)
/-- `__vortex_tunnel_start_request` for a node, tunnel/vortex_tunnel.c:876-1014: the host with this name gets it. -/
def tunServe (w : TunWorld) (h p : String) (host : TunHost) : TunNode → List TunEvent × Bool
  | .mk _ [] => if host.accept then ([.session h p], true) else ([], false)
  | .mk attrs (next :: more) => tunOpen w (.mk attrs (next :: more))
end

/-- The content that comes with the request to start the channel. -/
inductive TunContent
  /-- there is none: `profile_content` is NULL (src/vortex_channel.c:6912) -/
  | null
  /-- it is not XML -/
  | malformed
  | node (n : TunNode)

inductive TunReply
  /-- `strlen (NULL)`, tunnel/vortex_tunnel.c:860 -/
  | crash
  | ok
  | error (code : Nat)
  deriving DecidableEq, Repr

/-- `__vortex_tunnel_start_request`, tunnel/vortex_tunnel.c:821-1015. -/
def tunRequest (w : TunWorld) (h p : String) (host : TunHost) : TunContent → List TunEvent × TunReply
  | .null => ([], .crash)
  | .malformed => ([], .error 500)
  | .node (.mk a []) => if host.accept then ((tunServe w h p host (.mk a [])).1, .ok) else ([], .error 537)
  | .node (.mk a (n :: k)) =>
    ((tunServe w h p host (.mk a (n :: k))).1, if (tunServe w h p host (.mk a (n :: k))).2 then .ok else .error 450)

/-- `vortex_tunnel_new`, tunnel/vortex_tunnel.c:376-382: what was done, whether a connection is returned, and how many times the
handler given was called (it is not used). The greetings after the reply are taken to succeed. -/
def tunNew (w : TunWorld) (settings : TunNode) (_handler : Bool) : List TunEvent × Bool × Nat :=
  ((tunOpen w settings).1, (tunOpen w settings).2, 0)

end Verif.Model
