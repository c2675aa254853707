/-!
# Specification vocabulary: decimal numerals

Independent of the model: a list of octets is *the decimal numeral of n* when all octets are
ASCII digits, it has no superfluous leading zero, and its positional value is `n`.
-/
namespace Verif.Spec

/-- ASCII digit. -/
def IsDigit (b : UInt8) : Prop := 48 ≤ b.toNat ∧ b.toNat ≤ 57

/-- Positional value of a string of digits: the most significant comes first. -/
def decValue : List UInt8 → Nat
  | [] => 0
  | d :: ds => (d.toNat - 48) * 10 ^ ds.length + decValue ds

/-- `s` is the decimal numeral of `n`. -/
structure IsNumeral (n : Nat) (s : List UInt8) : Prop where
  digits : ∀ b ∈ s, IsDigit b
  nonempty : s ≠ []
  noLeadingZero : s.head? = some 48 → s.length = 1
  value : decValue s = n

end Verif.Spec
