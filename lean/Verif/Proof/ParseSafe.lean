import Verif.Proof.Header
/-! Where the header parser reads: helper lemmas for C06. -/
namespace Verif.Proof
open Verif.Model

theorem scanField_ok : ∀ (mem d r : List Byte), scanField mem = .ok d r →
    ∃ c, (c = SP ∨ c = LF ∨ c = CR) ∧ mem = d ++ c :: r ∧ ∀ x ∈ d, isDigitB x = true
  | [], d, r, h => by simp [scanField] at h
  | c :: cs, d, r, h => by
    unfold scanField at h
    split at h
    · next hc =>
      injection h with h1 h2
      subst h1; subst h2
      exact ⟨c, hc, rfl, by simp⟩
    · split at h
      · next hd =>
        split at h
        · next ds rest hs =>
          injection h with h1 h2
          subst h1; subst h2
          obtain ⟨c', hc', hm, hx⟩ := scanField_ok cs ds rest hs
          refine ⟨c', hc', by rw [hm]; rfl, ?_⟩
          intro x hxm
          rcases List.mem_cons.mp hxm with h | h
          · rw [h]; exact hd
          · exact hx x h
        · next r' hne => rw [h] at hne; exact absurd rfl (hne d r)
      · simp at h

theorem scanField_outside : ∀ (mem : List Byte), scanField mem = .outside → NUL ∉ mem
  | [], _ => by simp
  | c :: cs, h => by
    unfold scanField at h
    split at h
    · simp at h
    · split at h
      · next hd =>
        intro hm
        rcases List.mem_cons.mp hm with e | e
        · rw [← e] at hd; exact absurd hd (by decide)
        · cases hs : scanField cs with
          | ok a b => rw [hs] at h; simp at h
          | bad => rw [hs] at h; simp at h
          | outside => exact scanField_outside cs hs e
      · simp at h

theorem scanField_keeps_nul (mem d r : List Byte) (h : scanField mem = .ok d r) (hn : NUL ∈ mem) :
    NUL ∈ r := by
  obtain ⟨c, hc, hm, hx⟩ := scanField_ok mem d r h
  rw [hm] at hn
  rcases List.mem_append.mp hn with h1 | h1
  · have := hx _ h1
    exact absurd this (by decide)
  · rcases List.mem_cons.mp h1 with h2 | h2
    · rw [← h2] at hc
      exact absurd hc (by decide)
    · exact h2

/-- The only way the parser leaves the line. -/
theorem getHeaderData_outside (type : FType) (body : List Byte)
    (h : getHeaderData type (body ++ [NUL]) body.length = .outside) :
    type ≠ .seq ∧ ∃ d1 c d2 c2 e, body = d1 ++ c :: d2 ++ [c2, e] ∧ (∀ x ∈ d1, isDigitB x = true) ∧
      (∀ x ∈ d2, isDigitB x = true) ∧ (c = SP ∨ c = LF ∨ c = CR) ∧ (c2 = SP ∨ c2 = LF ∨ c2 = CR) := by
  have hnul : NUL ∈ body ++ [NUL] := by simp
  unfold getHeaderData at h
  split at h
  · simp at h
  split at h
  · next ho => exact absurd hnul (scanField_outside _ ho)
  · simp at h
  next d1 r1 hs1 =>
  have hn1 := scanField_keeps_nul _ _ _ hs1 hnul
  obtain ⟨c1, hc1, hm1, hx1⟩ := scanField_ok _ _ _ hs1
  simp only at h
  split at h
  · simp at h
  split at h
  · simp at h
  next hp1 =>
  split at h
  · -- SEQ
    split at h
    · next ho => exact absurd hn1 (scanField_outside _ ho)
    · simp at h
    next d2 r2 hs2 =>
    have hn2 := scanField_keeps_nul _ _ _ hs2 hn1
    split at h
    · simp at h
    split at h
    · simp at h
    split at h
    · next ho => exact absurd hn2 (scanField_outside _ ho)
    · simp at h
    split at h
    · simp at h
    split at h <;> simp at h
  next hty =>
  refine ⟨hty, ?_⟩
  split at h
  · next ho => exact absurd hn1 (scanField_outside _ ho)
  · simp at h
  next d2 r2 hs2 =>
  have hn2 := scanField_keeps_nul _ _ _ hs2 hn1
  obtain ⟨c2, hc2, hm2, hx2⟩ := scanField_ok _ _ _ hs2
  split at h
  · simp at h
  split at h
  · simp at h
  next hp2 =>
  have hlen := congrArg List.length hm1
  have hlen2 := congrArg List.length hm2
  simp only [List.length_append, List.length_cons, List.length_nil] at hlen hlen2
  split at h
  · next mc x r3 =>
    have hcontra : NUL ∈ r3 → False := by
      intro hn3
      split at h
      · next ho => exact scanField_outside _ ho hn3
      · simp at h
      next d4 r4 hs4 =>
      have hn4 := scanField_keeps_nul _ _ _ hs4 hn3
      split at h
      · next ho => exact scanField_outside _ ho hn4
      · simp at h
      next d5 r5 hs5 =>
      have hn5 := scanField_keeps_nul _ _ _ hs5 hn4
      split at h
      · split at h
        · next ho => exact scanField_outside _ ho hn5
        · simp at h
        · simp at h
      · simp at h
    -- the memory is d1 c1 d2 c2 mc x r3 = body NUL
    have hall : body ++ [NUL] = d1 ++ c1 :: (d2 ++ c2 :: mc :: x :: r3) := by rw [hm1, hm2]
    cases r3 with
    | nil =>
      have e : body ++ [NUL] = (d1 ++ c1 :: d2 ++ [c2, mc]) ++ [x] := by
        rw [hall]; simp
      obtain ⟨e1, e2⟩ := List.append_inj' e rfl
      exact ⟨d1, c1, d2, c2, mc, e1, hx1, hx2, hc1, hc2⟩
    | cons y r3 =>
      exfalso
      apply hcontra
      have hl := congrArg List.getLast? hall
      have e : d1 ++ c1 :: (d2 ++ c2 :: mc :: x :: y :: r3) =
          (d1 ++ c1 :: d2 ++ [c2, mc, x]) ++ (y :: r3) := by simp
      rw [e, List.getLast?_append, List.getLast?_append] at hl
      rw [List.getLast?_eq_some_getLast (l := y :: r3) (by simp)] at hl
      simp only [List.getLast?_singleton, Option.some_or, Option.some.injEq] at hl
      rw [hl]
      exact List.getLast_mem _
  · next hne =>
    exfalso
    cases r2 with
    | nil => simp at hn2
    | cons a r2 =>
      cases r2 with
      | nil =>
        simp only [List.length_cons, List.length_nil] at hlen2
        have := hp2
        omega
      | cons b r2 => exact hne a b r2 rfl

end Verif.Proof
