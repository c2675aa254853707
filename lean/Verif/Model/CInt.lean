/-!
# C integer conversions

Fixed-width integer conversions of the LP64 platforms libvortex runs on. Conversion to an
`int` of a value out of range is implementation-defined in C; gcc (used by /repo/configure.ac)
reduces modulo 2^32, which is what `i32` does. These functions model the language, not a file
of /repo.
-/
namespace Verif.Model

/-- Conversion to `unsigned int` (C11 6.3.1.3p2). -/
def u32 (x : Int) : Nat := (x % 4294967296).toNat

/-- Conversion to `int` (C11 6.3.1.3p3, gcc: modular). -/
def i32 (x : Int) : Int := (x + 2147483648) % 4294967296 - 2147483648

/-- Conversion to `size_t` / `unsigned long` on LP64. -/
def u64 (x : Int) : Nat := (x % 18446744073709551616).toNat

/-- An octet of a buffer (`char` in /repo; signedness is irrelevant for the uses modelled). -/
abbrev Byte := UInt8

/-- `' '`, `'\x0A'`, `'\x0D'`, `'*'`, `'.'` and `'\0'`. -/
def SP : Byte := 32
def LF : Byte := 10
def CR : Byte := 13
def STAR : Byte := 42
def DOT : Byte := 46
def NUL : Byte := 0

/-- The octets of an ASCII literal of the C source. -/
def lit (s : String) : List Byte := s.toList.map fun c => UInt8.ofNat c.toNat

end Verif.Model
