import Verif.Model.MgmtText
import Verif.Spec.XmlRpc
/-!
# Reading XML

The part of XML 1.0 that the messages of channel 0 use: elements with attributes, text, CDATA sections, and elements inside of the root.
Whatever uses more of XML (references, comments, declarations, deeper elements) is not read. White space in
attribute values and line ends are kept as they are.
-/
namespace Verif.Spec
open Verif.Model

def isXmlSpace (c : Byte) : Bool := c = 32 || c = 9 || c = 10 || c = 13

/-- Octets of names: all but white space and `/ > = ' " < &`. -/
def isXmlName (c : Byte) : Bool := !isXmlSpace c && c ≠ 47 && c ≠ 62 && c ≠ 61 && c ≠ 39 && c ≠ 34 && c ≠ 60 && c ≠ 38

/-- Octets of an attribute value between quotes `q`. -/
def isXmlValue (q c : Byte) : Bool := c ≠ q && c ≠ 60 && c ≠ 38

def isXmlText (c : Byte) : Bool := c ≠ 60 && c ≠ 38

/-- Attributes, up to the end of the tag. -/
def xmlAttrs : Nat → List Byte → Option (List (List Byte × List Byte) × List Byte)
  | 0, _ => none
  | n + 1, s =>
    match s.dropWhile isXmlSpace with
    | [] => none
    | c :: r =>
      if c = 47 ∨ c = 62 then some ([], c :: r)
      else if s.head?.any isXmlSpace = false then none
      else if isXmlName c = false then none
      else
        match ((c :: r).dropWhile isXmlName).dropWhile isXmlSpace with
        | [] => none
        | e :: r1 =>
          if e ≠ 61 then none
          else
            match r1.dropWhile isXmlSpace with
            | [] => none
            | q :: r2 =>
              if q ≠ 39 ∧ q ≠ 34 then none
              else
                match r2.dropWhile (isXmlValue q) with
                | [] => none
                | c3 :: r3 =>
                  if c3 ≠ q then none
                  else
                    match xmlAttrs n r3 with
                    | none => none
                    | some (l, r4) =>
                      -- attribute names are unique
                      if l.any (fun a => a.1 == (c :: r).takeWhile isXmlName) then none
                      else some (((c :: r).takeWhile isXmlName, r2.takeWhile (isXmlValue q)) :: l, r4)

/-- What is in front of the first `]]>`, and what is behind it. -/
def xmlCdataEnd : List Byte → Option (List Byte × List Byte)
  | [] => none
  | c :: r =>
    if (lit "]]>").isPrefixOf (c :: r) then some ([], r.drop 2)
    else
      match xmlCdataEnd r with
      | none => none
      | some (t, r') => some (c :: t, r')

/-- Text and CDATA sections, up to the next tag. -/
def xmlText : Nat → List Byte → Option (List Byte × List Byte)
  | 0, _ => none
  | n + 1, s =>
    match s.dropWhile isXmlText with
    | [] => none
    | c :: r =>
      if c ≠ 60 then none
      else if (lit "![CDATA[").isPrefixOf r then
        match xmlCdataEnd (r.drop 8) with
        | none => none
        | some (d, r1) =>
          match xmlText n r1 with
          | none => none
          | some (x, r2) => some (s.takeWhile isXmlText ++ d ++ x, r2)
      else some (s.takeWhile isXmlText, c :: r)

/-- The end tag of an element. -/
def xmlEndTag (name s : List Byte) : Option (List Byte) :=
  if (lit "</" ++ name).isPrefixOf s then
    match (s.drop (name.length + 2)).dropWhile isXmlSpace with
    | [] => none
    | c :: r => if c = 62 then some r else none
  else none

/-- Name and attributes of a start tag, behind `<`; whether it is the tag of an empty element; what follows. -/
def xmlTag (n : Nat) (s : List Byte) : Option (List Byte × List (List Byte × List Byte) × Bool × List Byte) :=
  if s.takeWhile isXmlName = [] then none
  else
    match xmlAttrs n (s.dropWhile isXmlName) with
    | none => none
    | some (l, r) =>
      if (lit "/>").isPrefixOf r then some (s.takeWhile isXmlName, l, true, r.drop 2)
      else if (lit ">").isPrefixOf r then some (s.takeWhile isXmlName, l, false, r.drop 1)
      else none

/-- An element with text only, behind `<`. -/
def xmlLeaf (n : Nat) (s : List Byte) : Option (XmlElem × List Byte) :=
  match xmlTag n s with
  | none => none
  | some (name, l, true, r) => some (⟨name, l, none⟩, r)
  | some (name, l, false, r) =>
    match xmlText n r with
    | none => none
    | some (t, r1) => (xmlEndTag name r1).map (fun r2 => (⟨name, l, some t⟩, r2))

/-- Text and elements, up to the end tag of the root. -/
def xmlKids : Nat → List Byte → List Byte → Option (List Byte × List XmlElem × List Byte)
  | 0, _, _ => none
  | n + 1, name, s =>
    match xmlText n s with
    | none => none
    | some (t, r) =>
      match xmlEndTag name r with
      | some r1 => some (t, [], r1)
      | none =>
        match xmlLeaf n (r.drop 1) with
        | none => none
        | some (e, r1) =>
          match xmlKids n name r1 with
          | none => none
          | some (t', es, r2) => some (t ++ t', e :: es, r2)

/-- A document. -/
def xmlRead (s : List Byte) : Option XmlDoc :=
  match s.dropWhile isXmlSpace with
  | [] => none
  | c :: r =>
    if c ≠ 60 then none
    else
      match xmlTag (s.length + 1) r with
      | none => none
      | some (name, l, true, r1) => if r1.all isXmlSpace then some ⟨⟨name, l, none⟩, []⟩ else none
      | some (name, l, false, r1) =>
        match xmlKids (s.length + 1) name r1 with
        | none => none
        | some (t, es, r2) => if r2.all isXmlSpace then some ⟨⟨name, l, some t⟩, es⟩ else none

/-- A C string that can stand between single quotes. -/
def quotableText (s : List Byte) : Prop := ∀ b ∈ s, b ≠ 39 ∧ b ≠ 60 ∧ b ≠ 38 ∧ b ≠ 0

/-- A C string that can stand in a CDATA section. -/
def sectionable (s : List Byte) : Prop := noCdataEnd s ∧ ∀ b ∈ s, b ≠ 0

/-- A C string that can stand as text. -/
def textual (s : List Byte) : Prop := ∀ b ∈ s, b ≠ 60 ∧ b ≠ 38 ∧ b ≠ 0

end Verif.Spec
