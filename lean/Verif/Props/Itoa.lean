import Verif.Proof.Itoa
/-!
# C01 — decimal rendering of header numbers
-/
namespace Verif.Props
open Verif.Model Verif.Spec Verif.Proof

/-- **C01**. For every 32 bit value, every buffer (with any previous content) and every declared
`buffer_size` not larger than the real buffer: there is no access outside the arrays; the
unique numeral `s` of the value is determined; if it fits, the call returns its length, the buffer
starts with exactly `s` and the rest of the buffer is untouched; if it does not fit it returns -1
and nothing at or beyond `buffer_size` is modified. In particular ten bytes always suffice. -/
theorem C01_itoa (value : Nat) (hv : value < 2 ^ 32) (buffer : List UInt8) (bufferSize : Int)
    (hbuf : bufferSize ≤ buffer.length) :
    ∃ s : List UInt8, IsNumeral value s ∧ s.length ≤ 10 ∧
      ((s.length : Int) ≤ bufferSize →
        itoa value buffer bufferSize = some ((s.length : Int), s ++ buffer.drop s.length)) ∧
      (bufferSize < (s.length : Int) →
        ∃ buffer', itoa value buffer bufferSize = some (-1, buffer') ∧
          buffer'.length = buffer.length ∧
          buffer'.drop bufferSize.toNat = buffer.drop bufferSize.toNat) := by
  have h10 := revDigits_length_u32 value (by omega)
  have hl : (dec value).length = (revDigits value).length := by simp [dec]
  refine ⟨dec value, dec_isNumeral value, by omega, ?_, ?_⟩
  · intro h
    exact itoa_ok value buffer bufferSize h10 (by omega) hbuf
  · intro h
    exact itoa_short value buffer bufferSize h10 (by omega) hbuf

/-- The numeral of a number is unique, so `C01_itoa` pins the output down completely. -/
theorem C01_numeral_unique (n : Nat) (s t : List UInt8) (hs : IsNumeral n s) (ht : IsNumeral n t) :
    s = t := by
  rw [numeral_eq_dec hs, numeral_eq_dec ht]

-- the hypotheses are satisfiable and the conclusion is the expected text
example : itoa 4294967295 (List.replicate 12 0) 10
    = some (10, lit "4294967295" ++ [0, 0]) := by decide +kernel
example : itoa 305 [1, 1] 2 = some (-1, lit "30") := by decide +kernel

end Verif.Props
