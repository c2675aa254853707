/-!
# Listeners of the configuration file (C156)

`vortex_listener_parse_conf_and_start` (src/vortex_listener.c:1775-1871) and the DTD it uses (src/vortex-listener-conf.dtd.h:6-13).

Simplifications: the document is a tree of the three levels the DTD speaks of, with attributes, comments and blanks left out (the parser
of axl is not modelled); whether a listener can be started depends on those started before, and is given beforehand.
-/
namespace Verif.Model

/-- An element below the root: its name, and name and content of each child. -/
structure LcfItem where
  name : String
  children : List (String × String)
  deriving DecidableEq, Repr

/-- A document. -/
structure LcfDoc where
  root : String
  items : List LcfItem
  deriving DecidableEq, Repr

/-- What the call meets. -/
structure LcfWorld where
  /-- the file `conf.xml`; `none`: not found, or no XML, :1795-1810 -/
  file : Option LcfDoc
  /-- the DTD can be read, :1814 -/
  dtd : Bool
  /-- whether a listener starts, given those that run -/
  up : List (String × String) → String × String → Bool

/-- `<!ELEMENT listener (hostname, port)>`, src/vortex-listener-conf.dtd.h:9. -/
def lcfItemValid (i : LcfItem) : Bool :=
  i.name == "listener" &&
    match i.children with
    | [a, b] => a.1 == "hostname" && b.1 == "port"
    | _ => false

/-- `axl_dtd_validate`, :1830, with `<!ELEMENT vortex-listener (listener+)>`, src/vortex-listener-conf.dtd.h:7. -/
def lcfValid (d : LcfDoc) : Bool := d.root == "vortex-listener" && !d.items.isEmpty && d.items.all lcfItemValid

/-- The content of a child by position, :1851-1857. -/
def lcfNth (i : LcfItem) (k : Nat) : String := ((i.children[k]?).map Prod.snd).getD ""

/-- The loop, :1849-1863: the listeners tried and those that run. What `vortex_listener_new` answers is ignored, :1860. -/
def lcfLoop (up : List (String × String) → String × String → Bool) (running : List (String × String)) :
    List LcfItem → List (String × String) × List (String × String)
  | [] => ([], running)
  | i :: is =>
    let l := (lcfNth i 0, lcfNth i 1)
    let r := lcfLoop up (if up running l then running ++ [l] else running) is
    (l :: r.1, r.2)

/-- The call: its answer (0 is `axl_false`), the listeners tried and those that run. -/
def lcfStart (w : LcfWorld) : Int × List (String × String) × List (String × String) :=
  match w.file with
  | none => (0, [], [])
  | some d =>
    -- :1815-1826
    if !w.dtd then (-1, [], [])
    -- :1830-1844
    else if !lcfValid d then (-1, [], [])
    else (1, lcfLoop w.up [] d.items)

end Verif.Model
