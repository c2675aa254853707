/-!
# Looking for data files (src/vortex_support.c)

`vortex_support_add_search_path`, `vortex_support_add_search_path_ref`, `vortex_support_add_domain_search_path`,
`vortex_support_add_domain_search_path_ref`, `vortex_support_check_search_path`, `vortex_support_find_data_file` and
`vortex_support_domain_find_data_file`, src/vortex_support.c:249-585, called by any number of threads. A step is what a thread does while
it has `search_path_mutex`. Not modelled: NULL arguments, failing allocations, the end of the context. The names are the texts of the C
strings. `axl_list_add` (axl, not in /repo) with a comparison that always says "after" adds at the end.
-/
namespace Verif.Model

/-- Where the thread is in a call that adds a path. -/
inductive SpPhase
  | idle
  /-- before `vortex_support_check_search_path` for the domain given, :326 and :368 -/
  | first (domain path : String)
  /-- before `vortex_support_check_search_path` for "default", :404 -/
  | second (domain path : String)
  /-- before the loop of :411-433 -/
  | third (domain path : String)
  deriving DecidableEq, Repr

structure SearchPaths where
  /-- `support_search_path`: domains and paths -/
  nodes : List (String × String)
  phase : Nat → SpPhase

def SearchPaths.init : SearchPaths := ⟨[], fun _ => .idle⟩

inductive SpOp
  /-- a thread calls `vortex_support_add_domain_search_path`, or (domain "default") `vortex_support_add_search_path` or
  `vortex_support_add_search_path_ref` -/
  | add (t : Nat) (domain path : String)
  /-- a thread calls `vortex_support_add_domain_search_path_ref` -/
  | addRef (t : Nat) (domain path : String)
  /-- the thread goes on -/
  | go (t : Nat)
  /-- `vortex_support_check_search_path` -/
  | check (domain path : String)
  /-- `vortex_support_domain_find_data_file`, or (domain "default") `vortex_support_find_data_file`; `fs`: the names that are those of
  regular files at this time (`vortex_support_file_test`, :1104-1153) -/
  | find (domain name : String) (fs : String → Bool)

/-- What the users see. -/
inductive SpEvent
  /-- a call to add the path begins -/
  | asked (domain path : String)
  /-- such a call ends -/
  | returned (domain path : String)
  | checked (domain path : String) (v : Bool)
  /-- the file name returned; `none`: NULL -/
  | found (domain name : String) (fs : String → Bool) (v : Option String)

/-- src/vortex_support.c:549-552; `sep` is `VORTEX_FILE_SEPARATOR`. -/
def spFile (sep path name : String) : String := if path = "." then name else path ++ sep ++ name

/-- The loop of `vortex_support_domain_find_data_file`, src/vortex_support.c:538-575. -/
def spFind (sep : String) (fs : String → Bool) (domain name : String) : List (String × String) → Option String
  | [] => none
  | (d, p) :: l =>
    if d = domain then
      if fs (spFile sep p name) then some (spFile sep p name) else spFind sep fs domain name l
    else spFind sep fs domain name l

def spSet (s : SearchPaths) (t : Nat) (p : SpPhase) : SearchPaths := { s with phase := fun k => if k = t then p else s.phase k }

/-- The next step of a call that adds a path. -/
def spGo (s : SearchPaths) (t : Nat) : SearchPaths × List SpEvent :=
  match s.phase t with
  | .idle => (s, [])
  -- :326-329 and :368-369
  | .first d p => if (d, p) ∈ s.nodes then (spSet s t .idle, [.returned d p]) else (spSet s t (.second d p), [])
  -- :404-409
  | .second d p => if ("default", p) ∈ s.nodes then (spSet s t .idle, [.returned d p]) else (spSet s t (.third d p), [])
  -- :411-443
  | .third d p =>
    if (d, p) ∈ s.nodes then (spSet s t .idle, [.returned d p])
    else (spSet { s with nodes := s.nodes ++ [(d, p)] } t .idle, [.returned d p])

def spStep (sep : String) (s : SearchPaths) : SpOp → SearchPaths × List SpEvent
  | .add t d p => if s.phase t = .idle then (spSet s t (.first d p), [.asked d p]) else (s, [])
  | .addRef t d p => if s.phase t = .idle then (spSet s t (.second d p), [.asked d p]) else (s, [])
  | .go t => spGo s t
  -- :276-308
  | .check d p => (s, [.checked d p (decide ((d, p) ∈ s.nodes))])
  | .find d name fs => (s, [.found d name fs (spFind sep fs d name s.nodes)])

/-- The steps of one interleaving, with what was seen before. -/
def spRun (sep : String) (s : SearchPaths) (log : List SpEvent) : List SpOp → SearchPaths × List SpEvent
  | [] => (s, log)
  | op :: ops => spRun sep (spStep sep s op).1 (log ++ (spStep sep s op).2) ops

end Verif.Model
