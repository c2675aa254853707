import Verif.Model.Mime
/-!
# The greetings of the peers, and the cache for them (src/vortex_connection.c)

`__vortex_connection_parse_greetings`, src/vortex_connection.c:714-813, called at the same time for several connections of one
context, and the functions that report what it left in the connection. A step is what a thread does between two points at which
other threads may get in. For one connection the greetings are handled by one thread at a time, which is therefore named by the
connection. Not modelled: a context without the DTD for channel management (:731-736), failing allocations, the end of the context
(which releases the cache, :7183-7204), the moments between the three assignments of :792-794.
-/
namespace Verif.Model

/-- What greetings say about the peer: two attributes and the list of profiles. -/
structure Advert where
  features : Option (List Byte)
  localize : Option (List Byte)
  profiles : List (List Byte)
  deriving DecidableEq, Repr

/-- The XML library (axl, not in /repo): `axl_doc_parse` for these octets, `axl_dtd_validate` with the DTD of channel management, and
what `axl_node_get_attribute_value_copy` finds in the document (src/vortex_connection.c:670-685). -/
structure GreetXml where
  Doc : Type
  parse : List Byte → Option Doc
  valid : Doc → Bool
  advert : Doc → Advert

/-- Where the thread handling the greetings of a connection is. -/
inductive GcPhase (Doc : Type)
  /-- not in `__vortex_connection_parse_greetings` -/
  | idle
  /-- it has the mutex and has looked into the cache, for these octets -/
  | looked (body : List Byte) (hit : Option Nat)
  /-- it has the mutex and a document -/
  | parsed (body : List Byte) (doc : Doc)
  /-- it has given back the mutex and knows the `VortexConnectionGreetingsCache` to use -/
  | found (body : List Byte) (block : Nat)

/-- The fields of a connection used here. -/
structure GcConn where
  /-- `is_connected` -/
  up : Bool
  /-- the block which `features`, `localize` and `remote_supported_profiles` point into; `none`: they are NULL -/
  block : Option Nat
  deriving DecidableEq, Repr

structure GreetCache (Doc : Type) where
  /-- `ctx->connection_xml_cache` -/
  table : List (List Byte × Nat)
  /-- the `VortexConnectionGreetingsCache` ever allocated, with what is in them; `none`: released -/
  blocks : List (Option Advert)
  /-- who has `ctx->connection_xml_cache_mutex` -/
  holder : Option Nat
  phase : Nat → GcPhase Doc
  conns : Nat → GcConn

def GreetCache.init {Doc : Type} : GreetCache Doc := ⟨[], [], none, fun _ => .idle, fun _ => ⟨false, none⟩⟩

inductive GcOp
  /-- the connection is established, for the first time or again -/
  | connect (c : Nat)
  /-- it is shut down -/
  | shut (c : Nat)
  /-- `__vortex_connection_parse_greetings` is called for these octets, gets the mutex and looks into the cache -/
  | lookup (c : Nat) (body : List Byte)
  /-- the thread handling the greetings of `c` goes on -/
  | go (c : Nat)
  /-- `vortex_connection_get_features` -/
  | features (c : Nat)
  /-- `vortex_connection_get_localize` -/
  | localize (c : Nat)
  /-- `vortex_connection_get_remote_profiles`, with these answers of the masks -/
  | profiles (c : Nat) (filtered : List Byte → Bool)
  /-- `vortex_connection_is_profile_supported` -/
  | supported (c : Nat) (uri : List Byte)

/-- What the users of the library and the peers see. -/
inductive GcEvent
  | connected (c : Nat)
  | shut (c : Nat)
  /-- `__vortex_connection_parse_greetings` returned `axl_true` for these octets -/
  | accepted (c : Nat) (body : List Byte)
  /-- it shut down the connection and returned `axl_false` -/
  | refused (c : Nat) (body : List Byte)
  | features (c : Nat) (v : Option (List Byte))
  | localize (c : Nat) (v : Option (List Byte))
  /-- the list returned; `none`: NULL -/
  | profiles (c : Nat) (filtered : List Byte → Bool) (v : Option (List (List Byte)))
  | supported (c : Nat) (uri : List Byte) (v : Bool)
  /-- memory that was released is read -/
  | freed (c : Nat)

/-- `axl_hash_get` (axl, not in /repo) with a key compared as a C string, src/vortex_connection.c:703-711. -/
def gcFind (key : List Byte) : List (List Byte × Nat) → Option Nat
  | [] => none
  | (k, b) :: l => if k = key then some b else gcFind key l

/-- `axl_hash_insert_full` (axl, not in /repo), src/vortex_connection.c:691-696: what was stored under the key is released. -/
def gcInsert {Doc : Type} (s : GreetCache Doc) (key : List Byte) (a : Advert) : GreetCache Doc :=
  let blocks := match gcFind key s.table with
    | none => s.blocks
    | some b => s.blocks.set b none
  { s with table := (key, s.blocks.length) :: s.table.filter (fun e => e.1 ≠ key), blocks := blocks ++ [some a] }

def gcSetPhase {Doc : Type} (s : GreetCache Doc) (c : Nat) (p : GcPhase Doc) : GreetCache Doc :=
  { s with phase := fun d => if d = c then p else s.phase d }

def gcSetConn {Doc : Type} (s : GreetCache Doc) (c : Nat) (v : GcConn) : GreetCache Doc :=
  { s with conns := fun d => if d = c then v else s.conns d }

/-- What the fields of the connection point to; an event when it was released. -/
def gcRead {Doc : Type} (s : GreetCache Doc) (c : Nat) (report : Option Advert → GcEvent) : GcEvent :=
  match (s.conns c).block with
  | none => report none
  | some b =>
    match s.blocks[b]? with
    | some (some a) => report (some a)
    | _ => .freed c

/-- The mutex is given back, the connection is shut down, `axl_false` is returned: src/vortex_connection.c:761-770 and :799-812. -/
def gcRefuse {Doc : Type} (s : GreetCache Doc) (c : Nat) (body : List Byte) : GreetCache Doc × List GcEvent :=
  (gcSetPhase (gcSetConn { s with holder := none } c { s.conns c with up := false }) c .idle, [.refused c body])

/-- The rest of `__vortex_connection_parse_greetings` after looking into the cache, src/vortex_connection.c:745-813. -/
def gcGo (x : GreetXml) (s : GreetCache x.Doc) (c : Nat) : Option (GreetCache x.Doc × List GcEvent) :=
  match s.phase c with
  | .idle => none
  -- :745-752
  | .looked body none =>
    match x.parse body with
    | none => some (gcRefuse s c body)
    | some doc => some (gcSetPhase s c (.parsed body doc), [])
  -- :753-758, :774, :787-788
  | .looked body (some b) => some (gcSetPhase { s with holder := none } c (.found body b), [])
  -- :774-788, :657-700
  | .parsed body doc =>
    if x.valid doc then
      some (gcSetPhase { gcInsert s (cstr body) (x.advert doc) with holder := none } c (.found body s.blocks.length), [])
    else some (gcRefuse s c body)
  -- :792-796
  | .found body b => some (gcSetPhase (gcSetConn s c { s.conns c with block := some b }) c .idle, [.accepted c body])

/-- One step; `none`: it cannot be taken now. -/
def gcStep (x : GreetXml) (s : GreetCache x.Doc) : GcOp → Option (GreetCache x.Doc × List GcEvent)
  | .connect c => some (gcSetConn s c { s.conns c with up := true }, [.connected c])
  | .shut c => some (gcSetConn s c { s.conns c with up := false }, [.shut c])
  -- src/vortex_connection.c:743-744; behind the payload there is always a zero octet (see `wireTail`, `builtTail`), so the key is
  -- the text up to the first zero octet
  | .lookup c body =>
    match s.holder, s.phase c with
    | none, .idle => some (gcSetPhase { s with holder := some c } c (.looked body (gcFind (cstr body) s.table)), [])
    | _, _ => none
  | .go c => gcGo x s c
  -- src/vortex_connection.c:6461-6466
  | .features c =>
    some (s, [if (s.conns c).up then gcRead s c (fun a => .features c (a.bind (·.features))) else .features c none])
  -- src/vortex_connection.c:6490-6495
  | .localize c =>
    some (s, [if (s.conns c).up then gcRead s c (fun a => .localize c (a.bind (·.localize))) else .localize c none])
  -- src/vortex_connection.c:3819-3854; the list is empty when `remote_supported_profiles` is NULL
  | .profiles c filtered =>
    some (s, [if (s.conns c).up then
        gcRead s c (fun a => .profiles c filtered (some (((a.map (·.profiles)).getD []).filter (fun u => !filtered u))))
      else .profiles c filtered none])
  -- src/vortex_connection.c:4043-4073
  | .supported c uri =>
    some (s, [if (s.conns c).up then
        gcRead s c (fun a => .supported c uri (((a.map (·.profiles)).getD []).contains uri))
      else .supported c uri false])

/-- The steps of one interleaving. Steps that cannot be taken are left out. -/
def gcRun (x : GreetXml) (s : GreetCache x.Doc) : List GcOp → GreetCache x.Doc × List GcEvent
  | [] => (s, [])
  | op :: ops =>
    match gcStep x s op with
    | none => gcRun x s ops
    | some (t, evs) => ((gcRun x t ops).1, evs ++ (gcRun x t ops).2)

end Verif.Model
