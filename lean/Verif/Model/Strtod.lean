/-!
# Decimal numbers read whatever the locale (C155)

`vortex_support_strtod` (src/vortex_support.c:784-821), which calls `strtod` of the C library, exchanges `.` and `,` in the text where
it stopped, and calls it again.

Simplifications: `strtod` reads an optional sign, digits, and the separator of the locale with digits after it; leading blanks,
exponents, hexadecimal numbers, infinities and grouping are left out. A number is given by its digits, without rounding.
-/
namespace Verif.Model

/-- A number: sign, digits before and after the separator. -/
structure PstNumber where
  neg : Bool
  int : List Char
  frac : List Char
  deriving DecidableEq, Repr

/-- The sign of a text, as it is written, and what follows. -/
def pstSign : List Char → Bool × List Char × List Char
  | '-' :: u => (true, ['-'], u)
  | '+' :: u => (false, ['+'], u)
  | u => (false, [], u)

/-- `strtod` with the separator of the locale: the number (`none`: 0.0, no conversion), the text it read and what is left. -/
def pstScan (loc : Char) (t : List Char) : Option PstNumber × List Char × List Char :=
  let s := pstSign t
  let i := s.2.2.takeWhile Char.isDigit
  match s.2.2.dropWhile Char.isDigit with
  | [] => if i = [] then (none, [], t) else (some ⟨s.1, i, []⟩, s.2.1 ++ i, [])
  | c :: r =>
    if c = loc then
      let f := r.takeWhile Char.isDigit
      if i = [] ∧ f = [] then (none, [], t) else (some ⟨s.1, i, f⟩, s.2.1 ++ i ++ c :: f, r.dropWhile Char.isDigit)
    else if i = [] then (none, [], t) else (some ⟨s.1, i, []⟩, s.2.1 ++ i, c :: r)

/-- The second try, :804-813, with another character where the first one stopped. -/
def pstAgain (loc : Char) (t : List Char) : Option PstNumber × List Char :=
  let p := pstScan loc t
  if p.2.2 = [] then (p.1, t) else (none, t)

/-- `vortex_support_strtod`: the number (`none`: 0.0) and the text of the caller afterwards. -/
def pstRead (loc : Char) (t : List Char) : Option PstNumber × List Char :=
  let p := pstScan loc t
  match p.2.2 with
  | [] => (p.1, t)
  | c :: r =>
    if c = '.' then pstAgain loc (p.2.1 ++ ',' :: r)
    else if c = ',' then pstAgain loc (p.2.1 ++ '.' :: r)
    else (none, t)

end Verif.Model
