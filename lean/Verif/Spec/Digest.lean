import Verif.Model.CInt
/-!
# The text of a digest (C113)
-/
namespace Verif.Spec
open Verif.Model

/-- The digit `d` (0 to 15) in upper case. -/
def hexOf (d : Nat) : Byte := (lit "0123456789ABCDEF").getD d 0

/-- Two digits for each octet, a colon between octets, as in `57:16:98`. -/
def fingerprintText : List Byte → List Byte
  | [] => []
  | [b] => [hexOf (b.toNat / 16), hexOf (b.toNat % 16)]
  | b :: c :: r => hexOf (b.toNat / 16) :: hexOf (b.toNat % 16) :: lit ":" ++ fingerprintText (c :: r)

end Verif.Spec
