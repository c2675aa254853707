import Verif.Model.GenFiles
/-!
# Which files the compiler may replace
-/
namespace Verif.Spec
open Verif.Model

/-- The lines of a text: what stands between line feeds (10). -/
def gfLines : List Byte → List (List Byte)
  | [] => [[]]
  | c :: r =>
    if c = 10 then [] :: gfLines r
    else
      match gfLines r with
      | [] => [[c]]
      | l :: t => (c :: l) :: t

/-- The answers the compiler asks for: `w` (119) writes, `s` (115) skips. -/
def gfAnswer (l : List Byte) : Option Bool :=
  if l = [119] then some true else if l = [115] then some false else none

/-- The first answer in the lines. -/
def gfFirst (ls : List (List Byte)) : Option Bool := ls.findSome? gfAnswer

/-- Lines as people type them: without zeros, and shorter than 1024 octets. -/
def GfTyped (s : List Byte) : Prop := ∀ l ∈ gfLines s, l.length < 1024 ∧ (0 : Byte) ∉ l

/-- The name under which a file is written first: the name of the file followed by `.xml-rpc-gen-version`. -/
def gfDraft (path : List Byte) : List Byte := path ++ (".xml-rpc-gen-version".toList.map fun c => UInt8.ofNat c.toNat)

/-- The property: a run over any files ends; a file that was there before keeps its content if the user never answered to write; a file that is not there, or for which the first answer is to write, has the new content; no other file stays behind; the status tells whether everything was compiled. -/
def C136_statement : Prop :=
  (∀ files input out, (Gf.run { files := files, input := input } out).hangs = false) ∧
  (∀ files input path content, gfFirst (gfLines input) ≠ none →
    (Gf.write { files := files, input := input } path content).files path =
      if files path = none ∨ gfFirst (gfLines input) = some true then some content else files path) ∧
  (∀ files input path content, files (gfDraft path) = none → (Gf.write { files := files, input := input } path content).files (gfDraft path) = none) ∧
  (∀ oks, ((gfMain oks).2 = 0 ↔ (gfMain oks).1 = oks.length))

end Verif.Spec
