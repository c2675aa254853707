import Verif.Model.Itoa
import Verif.Spec.Decimal
/-! Helper lemmas for `vortex_support_itoa`. -/
namespace Verif.Proof
open Verif.Model Verif.Spec

/-- Digits of `v`, least significant first. -/
def revDigits (v : Nat) : List Byte :=
  if v / 10 = 0 then [digitChar (v % 10)] else digitChar (v % 10) :: revDigits (v / 10)
termination_by v
decreasing_by omega

/-- The decimal numeral of `v`. -/
def dec (v : Nat) : List Byte := (revDigits v).reverse

theorem digitChar_toNat {d : Nat} (h : d < 10) : (digitChar d).toNat = 48 + d := by
  simp only [digitChar, UInt8.toNat_ofNat']
  omega

theorem revDigits_ne_nil (v : Nat) : revDigits v ≠ [] := by
  rw [revDigits]; split <;> simp

theorem revDigits_length_pos (v : Nat) : 0 < (revDigits v).length :=
  List.length_pos_iff.2 (revDigits_ne_nil v)

theorem revDigits_length (v k : Nat) (h : v < 10 ^ (k + 1)) : (revDigits v).length ≤ k + 1 := by
  induction k generalizing v with
  | zero =>
    have : v / 10 = 0 := by omega
    rw [revDigits, if_pos this]; simp
  | succ k ih =>
    rw [revDigits]
    split
    · simp
    · have h2 : v / 10 < 10 ^ (k + 1) := by
        rw [Nat.pow_succ] at h; omega
      have := ih _ h2
      simp only [List.length_cons]; omega

theorem revDigits_isDigit (v : Nat) : ∀ b ∈ revDigits v, IsDigit b := by
  fun_induction revDigits v with
  | case1 v h =>
    intro b hb
    simp only [List.mem_singleton] at hb
    subst hb
    simp only [IsDigit, digitChar_toNat (Nat.mod_lt v (by omega : 10 > 0))]
    omega
  | case2 v h ih =>
    intro b hb
    simp only [List.mem_cons] at hb
    rcases hb with rfl | hb
    · simp only [IsDigit, digitChar_toNat (Nat.mod_lt v (by omega : 10 > 0))]
      omega
    · exact ih b hb

theorem decValue_append (a : List UInt8) (d : UInt8) :
    decValue (a ++ [d]) = decValue a * 10 + (d.toNat - 48) := by
  induction a with
  | nil => simp [decValue]
  | cons x xs ih =>
    simp only [List.cons_append, decValue, ih, List.length_append, List.length_cons,
      List.length_nil, Nat.pow_succ, Nat.zero_add]
    rw [Nat.add_mul, Nat.mul_assoc, Nat.add_assoc]

theorem dec_value (v : Nat) : decValue (dec v) = v := by
  unfold dec
  fun_induction revDigits v with
  | case1 v h =>
    simp only [List.reverse_cons, List.reverse_nil, List.nil_append, decValue,
      digitChar_toNat (Nat.mod_lt v (by omega : 10 > 0)), List.length_nil]
    omega
  | case2 v h ih =>
    rw [List.reverse_cons, decValue_append, ih,
      digitChar_toNat (Nat.mod_lt v (by omega : 10 > 0))]
    omega

theorem dec_head (v : Nat) : (dec v).head? = some 48 → (dec v).length = 1 := by
  unfold dec
  fun_induction revDigits v with
  | case1 v h => simp
  | case2 v h ih =>
    intro hh
    exfalso
    have hne := revDigits_ne_nil (v / 10)
    rw [List.reverse_cons, List.head?_append] at hh
    have hh : (revDigits (v / 10)).reverse.head? = some 48 := by
      match hr : (revDigits (v / 10)).reverse with
      | [] => simp at hr; exact absurd hr hne
      | x :: xs => rw [hr] at hh; simpa using hh
    have hl := ih hh
    -- a one-digit quotient starting with 0 is 0
    have hv := dec_value (v / 10)
    unfold dec at hv
    match hr : (revDigits (v / 10)).reverse, hl with
    | [x], _ =>
      rw [hr] at hh hv
      simp only [List.head?_cons, Option.some.injEq] at hh
      subst hh
      simp [decValue] at hv
      omega

theorem dec_isNumeral (v : Nat) : IsNumeral v (dec v) where
  digits := by
    intro b hb
    exact revDigits_isDigit v b (by simpa [dec] using hb)
  nonempty := by simpa [dec] using revDigits_ne_nil v
  noLeadingZero := dec_head v
  value := dec_value v

theorem take_set_succ (buf : List Byte) (k : Nat) (c : Byte) (h : k < buf.length) :
    (buf.set k c).take (k + 1) = buf.take k ++ [c] := by
  rw [List.take_succ_eq_append_getElem (by simpa using h)]
  simp [List.take_set_of_le]

theorem itoaFill_eq (v : Nat) (inv : List Byte) (it : Nat) (hl : inv.length = 10)
    (h : it + (revDigits v).length ≤ 10) :
    itoaFill v inv it =
      (inv.take it ++ revDigits v ++ inv.drop (it + (revDigits v).length),
        it + (revDigits v).length - 1) := by
  fun_induction revDigits v generalizing inv it with
  | case1 v hv =>
    simp only [List.length_cons, List.length_nil] at h
    rw [itoaFill, if_pos (by omega)]
    simp only [hv, if_true]
    congr 1
    · rw [List.set_eq_take_append_cons_drop, if_pos (by omega)]
      simp
  | case2 v hv ih =>
    simp only [List.length_cons] at h
    have hpos := revDigits_length_pos (v / 10)
    rw [itoaFill, if_pos (by omega)]
    simp only [hv, if_false]
    rw [ih _ _ (by simpa using hl) (by omega)]
    simp only [List.length_cons]
    rw [take_set_succ _ _ _ (by omega), List.drop_set_of_lt (by omega)]
    have e : it + 1 + (revDigits (v / 10)).length = it + ((revDigits (v / 10)).length + 1) := by
      omega
    simp [e]

theorem itoaCopy_ok (bs : Nat) (inv : List Byte) (it it2 : Nat) (buf : List Byte)
    (hi : it < inv.length) (hb : it2 + it + 1 ≤ bs) (hbuf : it2 + it + 1 ≤ buf.length) :
    itoaCopy bs inv it it2 buf =
      some (buf.take it2 ++ (inv.take (it + 1)).reverse ++ buf.drop (it2 + it + 1), -1,
        it2 + it + 1) := by
  induction it generalizing it2 buf with
  | zero =>
    rw [itoaCopy, if_pos (by omega)]
    match inv, hi with
    | c :: cs, _ =>
      simp only [List.getElem?_cons_zero]
      rw [if_pos (by omega)]
      rw [List.set_eq_take_append_cons_drop, if_pos (by omega)]
      simp
  | succ it ih =>
    rw [itoaCopy, if_pos (by omega)]
    rw [List.getElem?_eq_getElem hi]
    simp only
    rw [if_pos (by omega), ih _ _ (by omega) (by omega) (by simp; omega)]
    rw [take_set_succ _ _ _ (by omega), List.drop_set_of_lt (by omega),
      List.take_succ_eq_append_getElem hi, List.reverse_append]
    have e : it2 + 1 + it + 1 = it2 + (it + 1) + 1 := by omega
    simp [e]

theorem itoaCopy_short (bs : Nat) (inv : List Byte) (it it2 : Nat) (buf : List Byte)
    (hi : it < inv.length) (hb : bs < it2 + it + 1) (hle : it2 ≤ bs) (hbuf : bs ≤ buf.length) :
    ∃ (buf' : List Byte) (it' : Nat), itoaCopy bs inv it it2 buf = some (buf', (it' : Int), bs) ∧
      buf'.length = buf.length ∧ buf'.drop bs = buf.drop bs := by
  induction it generalizing it2 buf with
  | zero =>
    have : it2 = bs := by omega
    subst this
    rw [itoaCopy, if_neg (by omega)]
    exact ⟨buf, 0, rfl, rfl, rfl⟩
  | succ it ih =>
    rw [itoaCopy]
    split
    · rename_i hlt
      rw [List.getElem?_eq_getElem hi]
      simp only
      rw [if_pos (by omega)]
      obtain ⟨b', i', h1, h2, h3⟩ := ih (it2 + 1) (buf.set it2 inv[it+1]) (by omega) (by omega)
        (by omega) (by simpa using hbuf)
      refine ⟨b', i', h1, by simpa using h2, ?_⟩
      rw [h3, List.drop_set_of_lt (by omega)]
    · have : it2 = bs := by omega
      subst this
      exact ⟨buf, it + 1, rfl, rfl, rfl⟩

theorem itoaFill_take (v : Nat) (h : (revDigits v).length ≤ 10) :
    (itoaFill v (List.replicate 10 0) 0).2 + 1 = (revDigits v).length ∧
    (itoaFill v (List.replicate 10 0) 0).1.take (revDigits v).length = revDigits v ∧
    (itoaFill v (List.replicate 10 0) 0).1.length = 10 := by
  have hpos := revDigits_length_pos v
  rw [itoaFill_eq v _ 0 (by simp) (by omega)]
  refine ⟨?_, ?_, ?_⟩
  · simp only; omega
  · simp
  · simp; omega

/-- `itoa` with enough room. -/
theorem itoa_ok (v : Nat) (buf : List Byte) (bs : Int) (h10 : (revDigits v).length ≤ 10)
    (hb : ((revDigits v).length : Int) ≤ bs) (hbuf : bs ≤ buf.length) :
    itoa v buf bs =
      some (((dec v).length : Int), dec v ++ buf.drop (dec v).length) := by
  have hpos := revDigits_length_pos v
  obtain ⟨h1, h2, h3⟩ := itoaFill_take v h10
  unfold itoa
  rw [if_neg (by omega)]
  generalize itoaFill v (List.replicate 10 0) 0 = p at *
  obtain ⟨inv, it⟩ := p
  simp only at h1 h2 h3 ⊢
  rw [itoaCopy_ok _ _ _ _ _ (by omega) (by omega) (by omega)]
  have e : 0 + it + 1 = (revDigits v).length := by omega
  simp only [e, dec, List.length_reverse, h1, h2, List.take_zero, List.nil_append]
  rfl

theorem itoa_short (v : Nat) (buf : List Byte) (bs : Int) (h10 : (revDigits v).length ≤ 10)
    (hb : bs < (revDigits v).length) (hbuf : bs ≤ buf.length) :
    ∃ buf', itoa v buf bs = some (-1, buf') ∧ buf'.length = buf.length ∧
      buf'.drop bs.toNat = buf.drop bs.toNat := by
  have hpos := revDigits_length_pos v
  obtain ⟨h1, h2, h3⟩ := itoaFill_take v h10
  unfold itoa
  split
  · exact ⟨buf, rfl, rfl, rfl⟩
  · generalize itoaFill v (List.replicate 10 0) 0 = p at *
    obtain ⟨inv, it⟩ := p
    simp only at h1 h2 h3 ⊢
    obtain ⟨b', i', e1, e2, e3⟩ := itoaCopy_short bs.toNat inv it 0 buf (by omega) (by omega)
      (by omega) (by omega)
    rw [e1]
    refine ⟨b', ?_, e2, e3⟩
    simp only
    rw [if_pos (by omega)]

theorem revDigits_length_u32 (v : Nat) (h : v < 4294967296) : (revDigits v).length ≤ 10 :=
  revDigits_length v 9 (by omega)

/-- Numerals are unique: two numerals of the same number coincide. -/
theorem decValue_lt (s : List UInt8) (hd : ∀ b ∈ s, IsDigit b) : decValue s < 10 ^ s.length := by
  induction s with
  | nil => simp [decValue]
  | cons x xs ih =>
    have hx := hd x (by simp)
    have := ih (fun b hb => hd b (by simp [hb]))
    simp only [decValue, List.length_cons, Nat.pow_succ, IsDigit] at *
    have h9 : x.toNat - 48 ≤ 9 := by omega
    have := Nat.mul_le_mul_right (10 ^ xs.length) h9
    omega

theorem digit_inj {a b : UInt8} (ha : IsDigit a) (hb : IsDigit b)
    (h : a.toNat - 48 = b.toNat - 48) : a = b := by
  simp only [IsDigit] at ha hb
  apply UInt8.toNat.inj
  omega

/-- Same length, same value: same digits. -/
theorem decValue_inj (s t : List UInt8) (hs : ∀ b ∈ s, IsDigit b) (ht : ∀ b ∈ t, IsDigit b)
    (hl : s.length = t.length) (hv : decValue s = decValue t) : s = t := by
  induction s generalizing t with
  | nil => cases t with
    | nil => rfl
    | cons => simp at hl
  | cons x xs ih =>
    cases t with
    | nil => simp at hl
    | cons y ys =>
      simp only [List.length_cons, Nat.add_right_cancel_iff] at hl
      simp only [decValue, hl] at hv
      have h1 := decValue_lt xs (fun b hb => hs b (by simp [hb]))
      have h2 := decValue_lt ys (fun b hb => ht b (by simp [hb]))
      rw [hl] at h1
      have hp : 0 < 10 ^ ys.length := Nat.pow_pos (by omega)
      have e1 : x.toNat - 48 = y.toNat - 48 := by
        have a := congrArg (· / 10 ^ ys.length) hv
        simp only [Nat.mul_comm _ (10 ^ ys.length), Nat.mul_add_div hp,
          Nat.div_eq_of_lt h1, Nat.div_eq_of_lt h2] at a
        simpa using a
      have e2 : decValue xs = decValue ys := by rw [e1] at hv; omega
      rw [digit_inj (hs x (by simp)) (ht y (by simp)) e1,
        ih ys (fun b hb => hs b (by simp [hb])) (fun b hb => ht b (by simp [hb])) hl e2]

/-- A numeral of length at least two is at least `10 ^ (length - 1)`. -/
theorem numeral_lower {n : Nat} {s : List UInt8} (hs : IsNumeral n s) (h2 : 2 ≤ s.length) :
    10 ^ (s.length - 1) ≤ n := by
  match s, hs, h2 with
  | x :: xs, hs, h2 =>
    have hx := hs.digits x (by simp)
    have hne : x ≠ 48 := by
      rintro rfl
      have := hs.noLeadingZero (by simp)
      omega
    have hx1 : 1 ≤ x.toNat - 48 := by
      simp only [IsDigit] at hx
      have : x.toNat ≠ 48 := fun h => hne (UInt8.toNat.inj (by simpa using h))
      omega
    have := hs.value
    simp only [decValue] at this
    have := Nat.mul_le_mul_right (10 ^ xs.length) hx1
    simp only [List.length_cons, Nat.add_sub_cancel]
    omega

theorem numeral_length {n : Nat} {s t : List UInt8} (hs : IsNumeral n s) (ht : IsNumeral n t) :
    s.length ≤ t.length := by
  apply Nat.le_of_not_lt
  intro hlt
  have h0 : t.length ≠ 0 := by simpa using ht.nonempty
  have h1 := numeral_lower hs (by omega)
  have h2 := decValue_lt t ht.digits
  rw [ht.value] at h2
  have : 10 ^ t.length ≤ 10 ^ (s.length - 1) := Nat.pow_le_pow_right (by omega) (by omega)
  omega

theorem numeral_eq_dec {n : Nat} {s : List UInt8} (hs : IsNumeral n s) : s = dec n := by
  have hd := dec_isNumeral n
  apply decValue_inj s (dec n) hs.digits hd.digits
  · exact Nat.le_antisymm (numeral_length hs hd) (numeral_length hd hs)
  · rw [hs.value, hd.value]

end Verif.Proof
