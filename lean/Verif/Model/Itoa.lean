import Verif.Model.CInt
/-!
# `vortex_support_itoa` (src/vortex_support.c)
-/
namespace Verif.Model

/-- `digits[d]` of src/vortex_support.c:842 (`static char digits[] = "0123456789"`). -/
def digitChar (d : Nat) : Byte := UInt8.ofNat (48 + d)

/-- First loop of `vortex_support_itoa`, src/vortex_support.c:851-861: fills `inverse` with the
digits of `value`, least significant first. Returns the array and `iterator`. -/
def itoaFill (value : Nat) (inverse : List Byte) (iterator : Nat) : List Byte × Nat :=
  if iterator < 10 then
    let inverse := inverse.set iterator (digitChar (value % 10))
    if value / 10 = 0 then (inverse, iterator)
    else itoaFill (value / 10) inverse (iterator + 1)
  else (inverse, iterator)
termination_by 10 - iterator

/-- Second loop, src/vortex_support.c:864-872: copies `inverse` backwards into `buffer`.
`none` is undefined behaviour (access outside `inverse[10]` or outside the `buffer` object, whose
real extent is the length of the list). Returns buffer, `iterator` (-1 when exhausted), `iterator2`. -/
def itoaCopy (bufferSize : Nat) (inverse : List Byte) (iterator iterator2 : Nat)
    (buffer : List Byte) : Option (List Byte × Int × Nat) :=
  if iterator2 < bufferSize then
    match inverse[iterator]? with
    | none => none
    | some c =>
      if iterator2 < buffer.length then
        let buffer := buffer.set iterator2 c
        match iterator with
        | 0 => some (buffer, -1, iterator2 + 1)
        | it + 1 => itoaCopy bufferSize inverse it (iterator2 + 1) buffer
      else none
  else some (buffer, (iterator : Int), iterator2)
termination_by iterator

/-- `vortex_support_itoa (value, buffer, buffer_size)`, src/vortex_support.c:838-880. `none` is
undefined behaviour; otherwise the returned int and the final contents of the buffer. The
initial contents of the local `inverse[10]` are irrelevant and taken to be zeros. -/
def itoa (value : Nat) (buffer : List Byte) (bufferSize : Int) : Option (Int × List Byte) :=
  if bufferSize ≤ 0 then some (-1, buffer)
  else
    let (inverse, iterator) := itoaFill value (List.replicate 10 0) 0
    match itoaCopy bufferSize.toNat inverse iterator 0 buffer with
    | none => none
    | some (buffer, it, it2) => if it ≠ -1 then some (-1, buffer) else some ((it2 : Int), buffer)

end Verif.Model
