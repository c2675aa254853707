import Verif.Spec.RecvFlow
import Verif.Proof.Flow
/-! Helper lemmas on the receive window. -/
namespace Verif.Proof
open Verif.Model Verif.Spec

/-- `E` octets received, `C` acknowledged by the last SEQ, both counted without wrapping. -/
structure RecvInv (w : RecvWin) (E C : Nat) : Prop where
  cons : w.consumed = C % 4294967296
  exp : w.expected = E % 4294967296
  ws : (w.seqWindow : Int) = w.windowSize
  wpos : 0 < w.windowSize
  wlt : w.windowSize < 2147483648
  dpos : 0 < w.desired
  dlt : w.desired < 2147483648
  ce : C ≤ E
  ew : E ≤ C + w.seqWindow

theorem RecvInv.init : RecvInv RecvWin.init 0 0 := by
  constructor <;> decide

theorem i32_small (x : Int) (h : -2147483648 ≤ x) (h2 : x < 2147483648) : i32 x = x := by
  unfold i32; omega

theorem i32_congr (x y : Int) (h : (x - y) % 4294967296 = 0) : i32 x = i32 y := by
  unfold i32; omega

theorem u32_congr (x y : Int) (h : (x - y) % 4294967296 = 0) : u32 x = u32 y := by
  unfold u32; omega

theorem check_iff {w E C} (h : RecvInv w E C) (n : Int) (h0 : 0 ≤ n) (h1 : n < 2147483648) :
    w.check (E % 4294967296) n = true ↔ (E : Int) - C + n ≤ w.seqWindow := by
  obtain ⟨a1, a2, a3, a4, a5, a6, a7, a8, a9⟩ := h
  unfold RecvWin.check
  rw [a1]
  split
  · rw [decide_eq_true_iff]
    have : u32 (((E % 4294967296 : Nat) : Int) - (C % 4294967296 : Nat) + n) = ((E : Int) - C + n).toNat := by
      unfold u32; omega
    rw [this]; omega
  · rw [decide_eq_true_iff]; omega

theorem bytesAvailable_eq {w E C} (h : RecvInv w E C) (n : Int) (h0 : 0 ≤ n)
    (hn : (E : Int) - C + n ≤ w.seqWindow) :
    w.bytesAvailable (E % 4294967296) n = (C : Int) + w.seqWindow - E - n := by
  obtain ⟨a1, a2, a3, a4, a5, a6, a7, a8, a9⟩ := h
  unfold RecvWin.bytesAvailable
  rw [a1]
  have hs : i32 ((C : Int) + w.seqWindow - E - n) = (C : Int) + w.seqWindow - E - n :=
    i32_small _ (by omega) (by omega)
  rw [← hs]
  split
  · apply i32_congr; omega
  · apply i32_congr
    have e1 := u32_cast (((E % 4294967296 : Nat) : Int) - (C % 4294967296 : Nat))
    have e2 := u32_cast ((w.seqWindow : Int) - u32 (((E % 4294967296 : Nat) : Int) - (C % 4294967296 : Nat)) - n)
    rw [e2, e1]
    omega

theorem u32_nonneg (x : Int) (h0 : 0 ≤ x) (h1 : x < 4294967296) : u32 x = x.toNat := by
  unfold u32; omega

/-- The three outcomes of receiving an expected frame. -/
theorem receive_cases {w E C} (h : RecvInv w E C) (n : Int) (h0 : 0 ≤ n) (h1 : n < 2147483648) :
    w.receive (E % 4294967296) n =
      if (E : Int) - C + n ≤ w.seqWindow then
        if (C : Int) + w.seqWindow - E - n > w.seqWindow / 2 then some (w.advance n, none)
        else if w.windowSize ≠ w.desired ∧
            u32 ((E : Int) + n + w.desired - 1) < u32 ((C : Int) + w.seqWindow - 1) then
          some (w.advance n, none)
        else
          some ({ consumed := u32 ((E : Int) + n), seqWindow := u32 w.desired,
                  expected := u32 ((E : Int) + n), windowSize := w.desired, desired := w.desired },
            some (u32 ((E : Int) + n), w.desired))
      else none := by
  have hc := check_iff h n h0 h1
  unfold RecvWin.receive
  by_cases hn : (E : Int) - C + n ≤ w.seqWindow
  · rw [if_pos hn, if_pos (hc.mpr hn)]
    have hb := bytesAvailable_eq h n h0 hn
    obtain ⟨a1, a2, a3, a4, a5, a6, a7, a8, a9⟩ := h
    unfold RecvWin.update
    simp only [hb]
    have e1 : u32 ((C : Int) + w.seqWindow - E - n) = ((C : Int) + w.seqWindow - E - n).toNat :=
      u32_nonneg _ (by omega) (by omega)
    rw [e1]
    have e2 : u32 (((E % 4294967296 : Nat) : Int) + n) = u32 ((E : Int) + n) :=
      u32_congr _ _ (by omega)
    have e3 : u32 (((u32 ((E : Int) + n) : Nat) : Int) + w.desired - 1)
        = u32 ((E : Int) + n + w.desired - 1) := by
      apply u32_congr
      rw [u32_cast]; omega
    have e4 : w.maxAccepted = u32 ((C : Int) + w.seqWindow - 1) := by
      unfold RecvWin.maxAccepted
      apply u32_congr
      rw [a1]; omega
    have e5 : u32 (((E % 4294967296 : Nat) : Int) + u32 n) = u32 ((E : Int) + n) := by
      apply u32_congr
      rw [u32_cast]; omega
    by_cases hb2 : (C : Int) + w.seqWindow - E - n > w.seqWindow / 2
    · have hb3 : ((C : Int) + w.seqWindow - E - n).toNat > w.seqWindow / 2 := by omega
      rw [if_pos hb2]
      simp only [if_pos hb3, a2, if_true]
    · have hb3 : ¬ ((C : Int) + w.seqWindow - E - n).toNat > w.seqWindow / 2 := by omega
      rw [if_neg hb2]
      simp only [if_neg hb3]
      rw [e2, e3, e4]
      by_cases hd : w.windowSize = w.desired
      · simp only [hd, ne_eq, not_true_eq_false, if_false, false_and]
        simp only [a2, if_true, RecvWin.advance, e5, hd]
      · simp only [ne_eq, hd, not_false_eq_true, if_true, true_and]
        by_cases hlt : u32 ((E : Int) + n + w.desired - 1) < u32 ((C : Int) + w.seqWindow - 1)
        · simp only [hlt, if_true, a2]
        · simp only [hlt, if_false, a2, if_true, RecvWin.advance, e5]
  · rw [if_neg hn, if_neg]
    rw [hc]; exact hn

theorem receive_seqno {w : RecvWin} {s : Nat} {n : Int} {r} (h : w.receive s n = some r) :
    s = w.expected := by
  unfold RecvWin.receive at h
  split at h
  · simp only at h
    have : (w.update s n).1.expected = w.expected := by
      unfold RecvWin.update
      simp only
      split
      · rfl
      · split
        · split <;> rfl
        · rfl
    split at h
    · next he => rw [this] at he; exact he.symm
    · simp at h
  · simp at h

theorem advance_recvInv {w E C} (h : RecvInv w E C) (n : Int) (h0 : 0 ≤ n)
    (hn : (E : Int) - C + n ≤ w.seqWindow) : RecvInv (w.advance n) (E + n.toNat) C := by
  obtain ⟨a1, a2, a3, a4, a5, a6, a7, a8, a9⟩ := h
  refine ⟨a1, ?_, a3, a4, a5, a6, a7, by omega, ?_⟩
  · show u32 ((w.expected : Int) + u32 n) = _
    rw [a2]
    have e := u32_cast n
    unfold u32 at *
    omega
  · show E + n.toNat ≤ C + w.seqWindow
    omega

theorem updated_recvInv {w E C} (h : RecvInv w E C) (n : Int) (h0 : 0 ≤ n) :
    RecvInv { consumed := u32 ((E : Int) + n), seqWindow := u32 w.desired,
              expected := u32 ((E : Int) + n), windowSize := w.desired, desired := w.desired }
      (E + n.toNat) (E + n.toNat) := by
  obtain ⟨a1, a2, a3, a4, a5, a6, a7, a8, a9⟩ := h
  have e : u32 w.desired = w.desired.toNat := u32_nonneg _ (by omega) (by omega)
  refine ⟨?_, ?_, ?_, a6, a7, a6, a7, Nat.le_refl _, ?_⟩
  · show u32 _ = _
    unfold u32; omega
  · show u32 _ = _
    unfold u32; omega
  · show ((u32 w.desired : Nat) : Int) = w.desired
    omega
  · exact Nat.le_add_right _ _

theorem setWindow_recvInv {w E C} (h : RecvInv w E C) (n : Int) (hn : n < 2147483648) :
    RecvInv (w.setWindow n) E C := by
  unfold RecvWin.setWindow
  split
  · exact ⟨h.cons, h.exp, h.ws, h.wpos, h.wlt, by assumption, hn, h.ce, h.ew⟩
  · exact h

end Verif.Proof
