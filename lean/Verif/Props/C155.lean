import Verif.Spec.Strtod
/-!
# C155 — decimal numbers read whatever the locale
-/
namespace Verif.Props
open Verif.Model Verif.Spec

theorem aux_sd_take (a : List Char) (h : ∀ c ∈ a, c.isDigit = true) (b : List Char) (hb : ∀ c r, b = c :: r → c.isDigit = false) :
    (a ++ b).takeWhile Char.isDigit = a ∧ (a ++ b).dropWhile Char.isDigit = b := by
  induction a with
  | nil =>
    cases b with
    | nil => exact ⟨rfl, rfl⟩
    | cons c r => simp [hb c r rfl]
  | cons x a ih =>
    have hx := h x (List.mem_cons_self ..)
    have := ih (fun c hc => h c (List.mem_cons_of_mem _ hc))
    simp [hx, this]

/-- A sign as it may be written. -/
def aux_sd_Sign (sign : List Char) (neg : Bool) : Prop := sign = ['-'] ∧ neg = true ∨ (sign = [] ∨ sign = ['+']) ∧ neg = false

theorem aux_sd_sign (sign : List Char) (neg : Bool) (h : aux_sd_Sign sign neg) (u : List Char) (hu : ∃ c r, u = c :: r ∧ c.isDigit = true) :
    pstSign (sign ++ u) = (neg, sign, u) := by
  obtain ⟨c, r, hu, hc⟩ := hu
  rcases h with ⟨h, hn⟩ | ⟨h | h, hn⟩ <;> subst h <;> subst hn
  · rfl
  · subst hu
    have h1 : c ≠ '-' := by intro e; subst e; exact absurd hc (by decide)
    have h2 : c ≠ '+' := by intro e; subst e; exact absurd hc (by decide)
    simp only [List.nil_append]
    unfold pstSign
    split
    · rename_i h; cases h; exact absurd rfl h1
    · rename_i h; cases h; exact absurd rfl h2
    · rfl
  · rfl

theorem aux_sd_scan (loc : Char) (n : PstNumber) (hn : PstProper n) (sign : List Char) (hs : aux_sd_Sign sign n.neg) :
    (n.frac = [] → pstScan loc (sign ++ n.int) = (some n, sign ++ n.int, [])) ∧
    (∀ sep, (sep = '.' ∨ sep = ',') →
      pstScan loc (sign ++ n.int ++ sep :: n.frac) =
        if sep = loc then (some n, sign ++ n.int ++ sep :: n.frac, []) else (some ⟨n.neg, n.int, []⟩, sign ++ n.int, sep :: n.frac)) := by
  obtain ⟨h1, h2, h3⟩ := hn
  obtain ⟨neg, int, frac⟩ := n
  dsimp only at h1 h2 h3 hs ⊢
  obtain ⟨c, r, hc⟩ : ∃ c r, int = c :: r := by
    cases int with
    | nil => exact absurd rfl h1
    | cons c r => exact ⟨c, r, rfl⟩
  have hcd : c.isDigit = true := h2 c (by rw [hc]; simp)
  refine ⟨fun hf => ?_, fun sep hsep => ?_⟩
  · have e := aux_sd_sign sign neg hs int ⟨c, r, hc, hcd⟩
    have t := aux_sd_take int h2 [] (by intro c r h; cases h)
    rw [List.append_nil] at t
    simp only [pstScan, e, t.1, t.2, h1, if_false, hf]
  · have e := aux_sd_sign sign neg hs (int ++ sep :: frac) ⟨c, r ++ sep :: frac, by rw [hc]; rfl, hcd⟩
    have hnd : sep.isDigit = false := by rcases hsep with h | h <;> subst h <;> rfl
    have t := aux_sd_take int h2 (sep :: frac) (by intro c r h; cases h; exact hnd)
    have f := aux_sd_take frac h3 [] (by intro c r h; cases h)
    rw [List.append_nil] at f
    rw [List.append_assoc]
    simp only [pstScan, e, t.1, t.2, f.1, f.2, h1, if_false, false_and]
    split <;> simp

/-- In both kinds of locale every number with digits before the separator, written with point, comma
or no separator, with any sign, is read. -/
theorem C155_read_partial (loc : Char) (n : PstNumber) (t : List Char) (hl : loc = '.' ∨ loc = ',') (hn : PstProper n)
    (hw : PstWritten n t) : (pstRead loc t).1 = some n := by
  cases hw with
  | whole sign n hf hs =>
    have := (aux_sd_scan loc n hn sign hs).1 hf
    simp [pstRead, this]
  | parts sign n sep hsep hs =>
    have key := (aux_sd_scan loc n hn sign hs).2
    by_cases he : sep = loc
    · have := key sep hsep
      rw [if_pos he] at this
      simp only [pstRead, this]
    · have := key sep hsep
      rw [if_neg he] at this
      have k2 := key loc hl
      rw [if_pos rfl] at k2
      rcases hsep with h | h <;> rcases hl with h' | h' <;> subst h <;> subst h'
      · exact absurd rfl he
      · simp only [pstRead, this, if_true, pstAgain, k2]
      · simp only [pstRead, this, if_true, pstAgain, k2]
        simp
      · exact absurd rfl he

example : PstWritten ⟨true, ['1', '2'], ['5']⟩ ['-', '1', '2', ',', '5'] ∧ PstProper ⟨true, ['1', '2'], ['5']⟩ :=
  ⟨PstWritten.parts ['-'] ⟨true, ['1', '2'], ['5']⟩ ',' (Or.inr rfl) (Or.inl ⟨rfl, rfl⟩), by decide, by decide, by decide⟩

/-- The text of the caller is written to exactly if its separator is not the one of the locale,
though the function takes it as constant. -/
theorem C155_changed (loc sep : Char) (n : PstNumber) (sign : List Char) (hl : loc = '.' ∨ loc = ',') (hsep : sep = '.' ∨ sep = ',')
    (hn : PstProper n) (hs : sign = ['-'] ∧ n.neg = true ∨ (sign = [] ∨ sign = ['+']) ∧ n.neg = false) :
    (pstRead loc (sign ++ n.int ++ sep :: n.frac)).2 = sign ++ n.int ++ loc :: n.frac := by
  have key := (aux_sd_scan loc n hn sign hs).2
  by_cases he : sep = loc
  · have := key sep hsep
    rw [if_pos he] at this
    simp only [pstRead, this]
    rw [he]
  · have := key sep hsep
    rw [if_neg he] at this
    have k2 := key loc hl
    rw [if_pos rfl] at k2
    rcases hsep with h | h <;> rcases hl with h' | h' <;> subst h <;> subst h'
    · exact absurd rfl he
    · simp only [pstRead, this, if_true, pstAgain, k2]
    · simp only [pstRead, this, if_true, pstAgain, k2]
      simp
    · exact absurd rfl he

theorem aux_sd_sign_inv (t : List Char) : t = (pstSign t).2.1 ++ (pstSign t).2.2 ∧ aux_sd_Sign (pstSign t).2.1 (pstSign t).1 := by
  unfold pstSign
  split
  · exact ⟨rfl, Or.inl ⟨rfl, rfl⟩⟩
  · exact ⟨rfl, Or.inr ⟨Or.inr rfl, rfl⟩⟩
  · exact ⟨rfl, Or.inr ⟨Or.inl rfl, rfl⟩⟩

/-- Digits only. -/
def aux_sd_Digits (n : PstNumber) : Prop := (∀ c ∈ n.int, c.isDigit = true) ∧ ∀ c ∈ n.frac, c.isDigit = true

theorem aux_sd_while (l : List Char) : ∀ c ∈ l.takeWhile Char.isDigit, c.isDigit = true := by
  induction l with
  | nil => intro c h; cases h
  | cons x l ih =>
    intro c h
    rw [List.takeWhile_cons] at h
    split at h
    · rename_i hx
      rcases List.mem_cons.mp h with e | h
      · rw [e]; exact hx
      · exact ih c h
    · cases h

/-- A character that occurs in one place only. -/
theorem aux_sd_place (x y p z : List Char) (c d : Char) (h : x ++ c :: y = p ++ d :: z) (hp : c ∉ p) (hz : c ∉ z) : x = p ∧ c = d ∧ y = z := by
  induction x generalizing p with
  | nil =>
    cases p with
    | nil => simp at h; exact ⟨rfl, h.1, h.2⟩
    | cons a p => simp at h; exact absurd (by simp [h.1]) hp
  | cons a x ih =>
    cases p with
    | nil =>
      simp at h
      exact absurd (by rw [← h.2]; simp) hz
    | cons b p =>
      simp at h
      obtain ⟨e1, e2, e3⟩ := ih p h.2 (fun hm => hp (List.mem_cons_of_mem _ hm))
      exact ⟨by rw [h.1, e1], e2, e3⟩

/-- A number written with one separator is that number written with the other one. -/
theorem aux_sd_other (n : PstNumber) (hd : aux_sd_Digits n) (x y : List Char) (c e : Char) (hc : c = '.' ∨ c = ',') (he : e = '.' ∨ e = ',')
    (h : PstWritten n (x ++ c :: y)) : PstWritten n (x ++ e :: y) := by
  have hnd : c.isDigit = false := by rcases hc with h | h <;> subst h <;> rfl
  have hsg : ∀ sg : List Char, aux_sd_Sign sg n.neg → c ∉ sg := by
    intro sg hsg hm
    rcases hsg with ⟨h, _⟩ | ⟨h | h, _⟩ <;> subst h <;> rcases hc with h | h <;> subst h <;> simp at hm
  have hi : c ∉ n.int := fun hm => by have := hd.1 c hm; rw [hnd] at this; cases this
  have hf : c ∉ n.frac := fun hm => by have := hd.2 c hm; rw [hnd] at this; cases this
  generalize ht : x ++ c :: y = t at h
  cases h with
  | whole sign n h0 hs =>
    have : c ∈ sign ++ n.int := by rw [← ht]; simp
    rcases List.mem_append.mp this with h | h
    · exact absurd h (hsg sign hs)
    · exact absurd h hi
  | parts sign n sep h0 hs =>
    obtain ⟨e1, _, e3⟩ := aux_sd_place x y (sign ++ n.int) n.frac c sep ht
      (fun hm => (List.mem_append.mp hm).elim (hsg sign hs) hi) hf
    rw [e1, e3]
    exact PstWritten.parts sign n e he hs

/-- What `strtod` took, it took from the beginning; if nothing is left, it is a number written with the separator of the locale. -/
theorem aux_sd_scan_inv (loc : Char) (hl : loc = '.' ∨ loc = ',') (t : List Char) :
    t = (pstScan loc t).2.1 ++ (pstScan loc t).2.2 ∧
    ∀ n, (pstScan loc t).1 = some n → (pstScan loc t).2.2 = [] → PstWritten n t ∧ aux_sd_Digits n := by
  obtain ⟨h1, h2⟩ := aux_sd_sign_inv t
  unfold pstScan
  generalize pstSign t = s at h1 h2
  obtain ⟨neg, sg, u⟩ := s
  dsimp only at h1 h2 ⊢
  have hu := List.takeWhile_append_dropWhile (p := Char.isDigit) (l := u)
  split
  · rename_i hd
    rw [hd, List.append_nil] at hu
    split
    · exact ⟨rfl, (by intro n h; cases h)⟩
    · refine ⟨by rw [List.append_nil, hu]; exact h1, ?_⟩
      intro n hn _
      cases hn
      have := PstWritten.whole sg ⟨neg, u.takeWhile Char.isDigit, []⟩ rfl h2
      dsimp only at this
      rw [hu] at this ⊢
      rw [h1]; exact ⟨this, by rw [← hu]; exact aux_sd_while u, (by intro c h; cases h)⟩
  · rename_i c r hd
    rw [hd] at hu
    split
    · rename_i hc
      have hr := List.takeWhile_append_dropWhile (p := Char.isDigit) (l := r)
      split
      · exact ⟨rfl, (by intro n h; cases h)⟩
      · refine ⟨?_, ?_⟩
        · dsimp only
          rw [List.append_assoc, List.append_assoc, List.cons_append, hr, hu]
          exact h1
        · intro n hn he
          cases hn
          dsimp only at he
          rw [he, List.append_nil] at hr
          have := PstWritten.parts sg ⟨neg, u.takeWhile Char.isDigit, r.takeWhile Char.isDigit⟩ c (hc ▸ hl) h2
          dsimp only at this
          have e : sg ++ List.takeWhile Char.isDigit u ++ c :: List.takeWhile Char.isDigit r = t := by
            rw [hr, List.append_assoc, hu]; exact h1.symm
          rw [e] at this
          exact ⟨this, aux_sd_while u, aux_sd_while r⟩
    · split
      · exact ⟨rfl, (by intro n h; cases h)⟩
      · refine ⟨?_, ?_⟩
        · dsimp only
          rw [List.append_assoc, hu]
          exact h1
        · intro n _ he; cases he

/-- Nothing but numbers is read: a text for which a number is returned is that number, written
with point, comma or no separator. -/
theorem C155_only (loc : Char) (hl : loc = '.' ∨ loc = ',') (t : List Char) (n : PstNumber) (h : (pstRead loc t).1 = some n) :
    PstWritten n t ∧ (∀ c ∈ n.int, c.isDigit = true) ∧ ∀ c ∈ n.frac, c.isDigit = true := by
  obtain ⟨h1, h2⟩ := aux_sd_scan_inv loc hl t
  have again : ∀ x y c e, (c = '.' ∨ c = ',') → (e = '.' ∨ e = ',') → (pstAgain loc (x ++ c :: y)).1 = some n →
      PstWritten n (x ++ e :: y) ∧ aux_sd_Digits n := by
    intro x y c e hc he h
    unfold pstAgain at h
    dsimp only at h
    split at h
    · rename_i h0
      have := (aux_sd_scan_inv loc hl _).2 n h h0
      exact ⟨aux_sd_other n this.2 x y c e hc he this.1, this.2⟩
    · cases h
  unfold pstRead at h
  dsimp only at h
  split at h
  · rename_i he
    exact h2 n h he
  · rename_i c r he
    rw [he] at h1
    split at h
    · rename_i hc
      rw [h1, hc]
      exact again _ r ',' '.' (Or.inr rfl) (Or.inl rfl) h
    · split at h
      · rename_i hc
        rw [h1, hc]
        exact again _ r '.' ',' (Or.inl rfl) (Or.inr rfl) h
      · cases h

example : pstRead '.' ['1', ',', '5'] = (some ⟨false, ['1'], ['5']⟩, ['1', '.', '5']) := by decide +kernel

/-- A text that is not a number may be changed too. -/
theorem C155_spoiled : pstRead '.' ['1', '.', '5', ',', '2'] = (none, ['1', '.', '5', '.', '2']) := by decide +kernel

/-- Without digits before the separator, a sign decides whether the number is read. -/
theorem C155_sign : (pstRead '.' [',', '5']).1 = some ⟨false, [], ['5']⟩ ∧ (pstRead '.' ['-', ',', '5']).1 = none := by decide +kernel

theorem C155_statement_false : ¬ C155_statement := by
  intro h
  have := h '.' ⟨false, ['1'], ['5']⟩ _ (Or.inl rfl) ⟨by decide, by decide, by decide⟩
    (PstWritten.parts [] ⟨false, ['1'], ['5']⟩ ',' (Or.inr rfl) (Or.inr ⟨Or.inl rfl, rfl⟩))
  exact absurd this (by decide +kernel)

end Verif.Props
