import Verif.Model.GenCode
/-!
# The files written by the compiler of XML-RPC interfaces

Models `xml_rpc_support_open_file`, `xml_rpc_support_close_file`, `xml_rpc_support_are_equal`,
`next_line` and `xml_rpc_support_move_file` of xml-rpc-gen/xml-rpc-support.c, and the loop over the
files of the command line of xml-rpc-gen/xml-rpc-gen.c. Simplified: files are a map from names to
contents (opening, writing and renaming never fail, no directory has the name of a file); the option
`force` is left out, because it is not among the options installed in xml-rpc-gen/xml-rpc-gen.c:279-298.
-/
namespace Verif.Model

/-- The file system, what is still to be read from the standard input, whether its end was seen (`feof`), the questions asked, and whether the compiler hangs. -/
structure Gf where
  files : List Byte → Option (List Byte)
  input : List Byte
  ended : Bool := false
  asked : List (List Byte) := []
  hangs : Bool := false

/-- The name used while a file is written (xml-rpc-gen/xml-rpc-support.c:133). -/
def gfTemp (path : List Byte) : List Byte := path ++ lit ".xml-rpc-gen-version"

/-- One file of the map changed. -/
def gfSet (files : List Byte → Option (List Byte)) (p : List Byte) (v : Option (List Byte)) : List Byte → Option (List Byte) :=
  fun q => if q = p then v else files q

/-- The loop of `xml_rpc_support_are_equal` (xml-rpc-gen/xml-rpc-support.c:252-269): one octet of each file at a time, until they differ or one ends. -/
def gfEqual : List Byte → List Byte → Bool
  | [], [] => true
  | a :: r, b :: t => if a = b then gfEqual r t else false
  | _, _ => false

/-- The loop of `next_line` on the standard input (xml-rpc-gen/xml-rpc-support.c:334-344): at most `n` octets; the line, the rest, and whether the end of the input was met. -/
def gfTake : Nat → List Byte → List Byte × List Byte × Bool
  | 0, s => ([], s, false)
  | _ + 1, [] => ([], [], true)
  | n + 1, c :: r =>
    if c = LF then ([], r, false)
    else let x := gfTake n r; (c :: x.1, x.2.1, x.2.2)

/-- The question of `xml_rpc_support_close_file` (xml-rpc-gen/xml-rpc-support.c:379-396): whether to write, and what is left of the input; none if it is asked for ever, which is so when the input has ended (`next_line` gives NULL, :283-286). The first argument bounds the rounds: each one takes an octet or meets the end. -/
def gfAsk : Nat → List Byte → Bool → Option (Bool × List Byte × Bool)
  | 0, _, _ => none
  | n + 1, s, ended =>
    if ended then none
    else
      let x := gfTake 1024 s
      let reply := gnStr x.1
      if reply = lit "w" then some (true, x.2.1, x.2.2)
      else if reply = lit "s" then some (false, x.2.1, x.2.2)
      else gfAsk n x.2.1 x.2.2

/-- `xml_rpc_support_open_file`, the writes and `xml_rpc_support_close_file` for one file (xml-rpc-gen/xml-rpc-support.c:121-150, 357-417). -/
def Gf.write (s : Gf) (path content : List Byte) : Gf :=
  if s.hangs then s
  else
    let f := gfSet s.files (gfTemp path) (some content)
    match f path with
    | none => { s with files := gfSet (gfSet f (gfTemp path) none) path (some content) }
    | some old =>
      if gfEqual old content then { s with files := gfSet f (gfTemp path) none }
      else
        match gfAsk (s.input.length + 2) s.input s.ended with
        | none => { s with files := f, asked := s.asked ++ [path], hangs := true }
        | some (true, rest, e) =>
          { s with files := gfSet (gfSet f (gfTemp path) none) path (some content), input := rest, ended := e, asked := s.asked ++ [path] }
        | some (false, rest, e) =>
          { s with files := f, input := rest, ended := e, asked := s.asked ++ [path] }

/-- All files of a run, in order. -/
def Gf.run (s : Gf) (out : List (List Byte × List Byte)) : Gf := out.foldl (fun s x => s.write x.1 x.2) s

/-- `xml_rpc_gen_compile` and the end of `main` (xml-rpc-gen/xml-rpc-gen.c:236-270, 372-388): the interface files are compiled until one cannot be; how many were, and the status of the program. -/
def gfMain : List Bool → Nat × Int
  | [] => (0, 0)
  | ok :: r => if ok then ((gfMain r).1 + 1, (gfMain r).2) else (0, 0)

end Verif.Model
