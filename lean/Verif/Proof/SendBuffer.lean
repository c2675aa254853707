import Verif.Model.SendBuffer
import Verif.Proof.Header
/-! Helper lemmas for the send buffer. -/
namespace Verif.Proof
open Verif.Model

theorem growLoop_ge (n bs : Nat) (h : 100 < bs) : n + 100 ≤ growLoop n bs ∧ bs ≤ growLoop n bs := by
  fun_induction growLoop n bs with
  | case1 bs hc ih => have := ih (by omega); omega
  | case2 bs hc => omega

theorem check_ge (n bs : Nat) :
    n + 100 ≤ checkAndIncreaseBuffer n bs ∧ bs ≤ checkAndIncreaseBuffer n bs := by
  unfold checkAndIncreaseBuffer
  split
  · split
    · exact growLoop_ge n bs (by omega)
    · omega
  · omega

/-- No header is longer than 62 octets, whatever the numbers. -/
theorem buildHeader_length (type : FType) (ch mn : Int) (more : Bool) (sq : Nat)
    (sz an : Int) : ∃ h, buildHeader type ch mn more sq sz an none none = some h ∧ h.length ≤ 62 := by
  have a1 := dec_length_le (u32 ch) (u32_lt _)
  have a2 := dec_length_le (u32 mn) (u32_lt _)
  have a3 := dec_length_le (u32 sq) (u32_lt _)
  have a4 := dec_length_le (u32 sz) (u32_lt _)
  have a5 := dec_length_le (u32 an) (u32_lt _)
  unfold buildHeader
  simp only [itoaStr_eq, Option.bind_eq_bind, Option.bind_some, Option.isSome_none,
    Bool.or_self, List.append_nil]
  by_cases hs : type = .seq
  · rw [if_pos hs]
    exact ⟨_, rfl, by simp [letters_length, crlf]; omega⟩
  · rw [if_neg hs]
    by_cases ha : an ≥ 0
    · rw [if_pos ha]
      exact ⟨_, rfl, by simp [letters_length, crlf]; omega⟩
    · rw [if_neg ha]
      exact ⟨_, rfl, by simp [letters_length, crlf]; omega⟩

end Verif.Proof
