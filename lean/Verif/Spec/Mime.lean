import Verif.Model.CInt
/-!
# Vocabulary for the MIME properties

Only octet lists and the character names of `Verif.Model.CInt` are used.
-/
namespace Verif.Spec
open Verif.Model (Byte SP LF CR lit NUL)

/-- An empty line (`LF` or `CR LF` at the beginning of a line) starts at offset `i` of the text, and
the line after it starts at offset `n`. -/
def EmptyLineAt (p : List Byte) (i n : Nat) : Prop :=
  (i = 0 ∨ p[i - 1]? = some LF) ∧
    ((p[i]? = some LF ∧ n = i + 1) ∨ (p[i]? = some CR ∧ p[i + 1]? = some LF ∧ n = i + 2))

/-- The body of a MIME text starts at offset `n`: right after the first empty line. -/
def BodyAt (p : List Byte) (n : Nat) : Prop :=
  ∃ i, EmptyLineAt p i n ∧ ∀ j m, EmptyLineAt p j m → i ≤ j

/-- A MIME header as text. -/
def headerLine (name value : List Byte) : List Byte := name ++ lit ": " ++ value ++ [CR, LF]

/-- A MIME header block as text, with the final empty line. -/
def headerBlock : List (List Byte × List Byte) → List Byte
  | [] => [CR, LF]
  | (n, v) :: hs => headerLine n v ++ headerBlock hs

/-- A header name: 1 to 994 printable characters other than colon. -/
def HeaderName (name : List Byte) : Prop :=
  0 < name.length ∧ name.length < 995 ∧ ∀ b ∈ name, 33 ≤ b.toNat ∧ b.toNat ≤ 126 ∧ b ≠ 58

/-- A header value on a single line, without surrounding white space. -/
def HeaderValue (v : List Byte) : Prop :=
  (∀ b ∈ v, b ≠ LF ∧ b ≠ NUL) ∧
    (∀ b, v.head? = some b → b ≠ SP ∧ b ≠ 9 ∧ b ≠ CR) ∧
    (∀ b, v.getLast? = some b → b ≠ SP ∧ b ≠ 9 ∧ b ≠ CR)

/-- Two header names are the same up to the case of ASCII letters. -/
def SameName (a b : List Byte) : Prop :=
  a.map (fun c => if 65 ≤ c.toNat ∧ c.toNat ≤ 90 then c + 32 else c) =
    b.map (fun c => if 65 ≤ c.toNat ∧ c.toNat ≤ 90 then c + 32 else c)

instance (a b : List Byte) : Decidable (SameName a b) := inferInstanceAs (Decidable (_ = _))

/-- The headers a message carries for a configured MIME type and transfer encoding: the values BEEP
takes as default (`application/octet-stream`, `binary`) are not written. -/
def implicitHeaders (type encoding : Option (List Byte)) : List (List Byte × List Byte) :=
  (match type with
    | some t => if t = lit "application/octet-stream" then [] else [(lit "Content-Type", t)]
    | none => []) ++
  (match encoding with
    | some e => if e = lit "binary" then [] else [(lit "Content-Transfer-Encoding", e)]
    | none => [])

/-- The header names every MIME implementation knows. -/
def wellKnown : List (List Byte) :=
  [lit "Content-Type", lit "Content-Transfer-Encoding", lit "MIME-Version", lit "Content-ID",
   lit "Content-Description"]

end Verif.Spec
