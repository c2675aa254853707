import Verif.Proof.Mime
/-!
# Parsing a rendered header block
-/
namespace Verif.Proof
open Verif.Model Verif.Spec

theorem getElem?_pre (pre : List Byte) (b : Byte) (r : List Byte) : (pre ++ b :: r)[pre.length]? = some b := by
  rw [List.getElem?_append_right (Nat.le_refl _)]; simp

theorem nameEnd_run (mark : Nat) : ∀ (name pre r : List Byte) (fuel : Nat), name.length < fuel →
    mark ≤ pre.length → pre.length + name.length - mark < 995 →
    (∀ b ∈ name, 33 ≤ b.toNat ∧ b.toNat ≤ 126 ∧ b ≠ COLON) →
    nameEnd (pre ++ (name ++ COLON :: r)) mark fuel pre.length = pre.length + name.length := by
  intro name
  induction name with
  | nil =>
    intro pre r fuel hf _ _ _
    obtain ⟨f, rfl⟩ : ∃ f, fuel = f + 1 := ⟨fuel - 1, by simp at hf; omega⟩
    simp only [nameEnd, List.nil_append, getElem?_pre]
    rw [if_neg (by simp)]
    rfl
  | cons b name ih =>
    intro pre r fuel hf hm hl hb
    simp only [List.length_cons] at hf hl
    obtain ⟨f, rfl⟩ : ∃ f, fuel = f + 1 := ⟨fuel - 1, by omega⟩
    have hb0 := hb b (by simp)
    simp only [nameEnd, List.cons_append, getElem?_pre]
    rw [if_pos]
    · have := ih (pre ++ [b]) r f (by omega) (by simp; omega) (by simp; omega)
        (fun x hx => hb x (by simp [hx]))
      simp only [List.append_assoc, List.cons_append, List.nil_append, List.length_append,
        List.length_cons, List.length_nil] at this
      rw [show pre.length + (0 + 1) = pre.length + 1 by omega] at this
      rw [this]
      simp only [List.length_cons]; omega
    · refine ⟨hb0.2.2, ?_, ?_, hb0.2.1, hb0.1, by omega⟩
      · intro h; rw [h] at hb0; exact absurd hb0.1 (by decide)
      · intro h; rw [h] at hb0; exact absurd hb0.1 (by decide)

theorem contentEnd_run (tl : List Byte) {t : List Byte} (htl : tl = NUL :: t) :
    ∀ (v pre r : List Byte) (fuel : Nat), v.length < fuel → (∀ b ∈ v, b ≠ LF) →
    (∀ b, r.head? = some b → b ≠ SP ∧ b ≠ TAB) →
    contentEnd (pre ++ (v ++ CR :: LF :: r)) tl fuel pre.length = some (pre.length + v.length) := by
  intro v
  induction v with
  | nil =>
    intro pre r fuel hf _ hr
    obtain ⟨f, rfl⟩ : ∃ f, fuel = f + 1 := ⟨fuel - 1, by simp at hf; omega⟩
    simp only [List.nil_append]
    have h1 : (pre ++ CR :: LF :: r)[pre.length + 1]? = some LF := by
      have := getElem?_pre (pre ++ [CR]) LF r
      simpa using this
    have h2 : notBlankAt (pre ++ CR :: LF :: r) tl (pre.length + 2) = some true := by
      unfold notBlankAt byteAt
      have : ((pre ++ CR :: LF :: r) ++ tl)[pre.length + 2]? = (r ++ tl)[0]? := by
        rw [show (pre ++ CR :: LF :: r) ++ tl = (pre ++ [CR, LF]) ++ (r ++ tl) by simp]
        rw [List.getElem?_append_right (by simp)]
        simp
      rw [this]
      cases r with
      | nil => subst htl; rfl
      | cons b r =>
        have := hr b rfl
        simp [this]
    simp only [contentEnd, getElem?_pre, h1]
    rw [if_pos (by simp), h2]
    simp
  | cons b v ih =>
    intro pre r fuel hf hv hr
    simp only [List.length_cons] at hf
    obtain ⟨f, rfl⟩ : ∃ f, fuel = f + 1 := ⟨fuel - 1, by omega⟩
    have hb : b ≠ LF := hv b (by simp)
    simp only [List.cons_append]
    have h0 : (pre ++ b :: (v ++ CR :: LF :: r))[pre.length]? = some b := getElem?_pre _ _ _
    have h1 : (pre ++ b :: (v ++ CR :: LF :: r))[pre.length + 1]? ≠ some LF := by
      have : (pre ++ b :: (v ++ CR :: LF :: r))[pre.length + 1]? = (v ++ CR :: LF :: r)[0]? := by
        rw [show pre ++ b :: (v ++ CR :: LF :: r) = (pre ++ [b]) ++ (v ++ CR :: LF :: r) by simp]
        rw [List.getElem?_append_right (by simp)]
        simp
      rw [this]
      cases v with
      | nil => simp; decide
      | cons c v =>
        have := hv c (by simp)
        simpa using this
    rw [contentEnd]
    rw [if_neg (by intro h; exact h1 h.2.2)]
    simp only
    rw [if_neg (by intro h; rw [h0] at h; simp only [Option.some.injEq] at h; exact hb h.2)]
    simp only
    rw [if_neg (by simp)]
    have := ih (pre ++ [b]) r f (by omega) (fun x hx => hv x (by simp [hx])) hr
    simp only [List.append_assoc, List.cons_append, List.nil_append, List.length_append,
      List.length_cons, List.length_nil] at this
    rw [show pre.length + (0 + 1) = pre.length + 1 by omega] at this
    rw [this]
    simp only [List.length_cons, Option.some.injEq]; omega

theorem dropWhile_keep {l : List Byte} (h : ∀ b, l.head? = some b → isWhite b = false) :
    l.dropWhile isWhite = l := by
  cases l with
  | nil => rfl
  | cons b l => simp [List.dropWhile, h b rfl]

theorem trim_value (v : List Byte) (hv : HeaderValue v) : trim (SP :: v) = v := by
  have hw : ∀ b : Byte, (b ≠ SP ∧ b ≠ 9 ∧ b ≠ CR) → b ≠ LF → isWhite b = false := by
    intro b h1 h2
    simp only [isWhite, Bool.or_eq_false_iff, beq_eq_false_iff_ne]
    exact ⟨⟨⟨h1.1, h1.2.1⟩, h1.2.2⟩, h2⟩
  have h1 : (SP :: v).dropWhile isWhite = v := by
    rw [List.dropWhile_cons_of_pos (by decide)]
    apply dropWhile_keep
    intro b hb
    exact hw b (hv.2.1 b hb) (hv.1 b (List.mem_of_mem_head? hb)).1
  have h2 : v.reverse.dropWhile isWhite = v.reverse := by
    apply dropWhile_keep
    intro b hb
    rw [List.head?_reverse] at hb
    exact hw b (hv.2.2 b hb) (hv.1 b (List.mem_of_getLast? hb)).1
  unfold trim
  rw [h1, h2, List.reverse_reverse]

theorem cstr_of_no_nul {s : List Byte} (h : ∀ b ∈ s, b ≠ NUL) : cstr s = s := by
  unfold cstr
  induction s with
  | nil => rfl
  | cons b s ih =>
    rw [List.takeWhile_cons_of_pos (by simpa using h b (by simp)), ih fun x hx => h x (by simp [hx])]

theorem take_drop_mid (a b c : List Byte) : ((a ++ (b ++ c)).drop a.length).take b.length = b := by
  simp

/-- Reading one rendered header. -/
theorem readMimeHeader_line (tl : List Byte) {t : List Byte} (htl : tl = NUL :: t)
    (pre name value r : List Byte) (hn : HeaderName name) (hv : HeaderValue value)
    (hr : ∀ b, r.head? = some b → b ≠ SP ∧ b ≠ TAB) :
    readMimeHeader (pre ++ (headerLine name value ++ r)) tl pre.length =
      .ok name value (pre.length + (headerLine name value).length) := by
  have hlen : (headerLine name value).length = name.length + 2 + value.length + 2 := by
    simp [headerLine, show (lit ": ").length = 2 from rfl]; omega
  have e1 : pre ++ (headerLine name value ++ r) =
      pre ++ (name ++ COLON :: (SP :: (value ++ CR :: LF :: r))) := by
    simp [headerLine, show lit ": " = [COLON, SP] from rfl]
  have e2 : pre ++ (headerLine name value ++ r) =
      (pre ++ name) ++ (((COLON :: SP :: value)) ++ CR :: LF :: r) := by
    rw [e1]; simp
  have e3 : pre ++ (headerLine name value ++ r) =
      (pre ++ name ++ [COLON]) ++ ((SP :: value) ++ CR :: LF :: r) := by
    rw [e1]; simp
  have e4 : pre ++ (headerLine name value ++ r) =
      (pre ++ name ++ COLON :: SP :: value) ++ CR :: LF :: r := by
    rw [e1]; simp
  generalize hp : pre ++ (headerLine name value ++ r) = p at *
  have hpl : p.length = pre.length + name.length + 2 + value.length + 2 + r.length := by
    rw [e1]; simp; omega
  have hne : nameEnd p pre.length p.length pre.length = pre.length + name.length := by
    rw [e1]
    apply nameEnd_run
    · simp; omega
    · exact Nat.le_refl _
    · have := hn.2.1; omega
    · exact hn.2.2
  have hnm : (p.drop pre.length).take (pre.length + name.length - pre.length) = name := by
    rw [e1, show pre.length + name.length - pre.length = name.length by omega]
    exact take_drop_mid _ _ _
  have hcol : p[pre.length + name.length]? = some COLON := by
    have := getElem?_pre (pre ++ name) COLON (SP :: (value ++ CR :: LF :: r))
    rw [e1]
    simpa using this
  have hcb : byteAt p tl (pre.length + name.length) = some COLON := by
    rw [byteAt_lt (by omega), hcol]
  have hce : contentEnd p tl (p.length + 1) (pre.length + name.length) =
      some (pre.length + name.length + (value.length + 2)) := by
    have := contentEnd_run tl htl (COLON :: SP :: value) (pre ++ name) r (p.length + 1)
      (by simp; omega)
      (by
        intro b hb
        simp only [List.mem_cons] at hb
        rcases hb with rfl | rfl | hb
        · decide
        · decide
        · exact (hv.1 b hb).1) hr
    rw [← e2] at this
    simpa using this
  have hct : (p.drop (pre.length + name.length + 1)).take
      (pre.length + name.length + (value.length + 2) - (pre.length + name.length + 1)) = SP :: value := by
    rw [e3, show pre.length + name.length + 1 = (pre ++ name ++ [COLON]).length by simp; omega,
      show pre.length + name.length + (value.length + 2) - (pre ++ name ++ [COLON]).length
        = (SP :: value).length by simp; omega]
    exact take_drop_mid _ _ _
  have hend : byteAt p tl (pre.length + name.length + (value.length + 2)) = some CR := by
    rw [byteAt_lt (by omega)]
    have := getElem?_pre (pre ++ name ++ COLON :: SP :: value) CR (LF :: r)
    rw [← e4] at this
    rw [show pre.length + name.length + (value.length + 2) =
      (pre ++ name ++ COLON :: SP :: value).length by simp; omega]
    exact this
  have hsp : p[pre.length + name.length]? ≠ some SP := by rw [hcol]; decide
  have c3 : ¬ (pre.length + name.length = p.length) := by omega
  have c2 : ¬ (pre.length + name.length - pre.length ≥ 995) := by have := hn.2.1; omega
  unfold readMimeHeader
  simp only [hne, hcb, skipSpaces_stay hsp, hce, hend, hnm, hct]
  rw [if_neg (by decide), if_neg c2, if_neg c3, if_neg (by simp), if_neg (by decide)]
  have h1 : cstr name = name := by
    apply cstr_of_no_nul
    intro b hb h
    have := hn.2.2 b hb
    rw [h] at this
    exact absurd this.1 (by decide)
  have h2 : cstr (SP :: value) = SP :: value := by
    apply cstr_of_no_nul
    intro b hb
    simp only [List.mem_cons] at hb
    rcases hb with rfl | hb
    · decide
    · exact (hv.1 b hb).2
  rw [h1, h2, trim_value value hv, hlen]
  congr 1
  omega

theorem headerBlock_head (hs : List (List Byte × List Byte)) (body : List Byte)
    (h : ∀ x ∈ hs, HeaderName x.1 ∧ HeaderValue x.2) :
    ∀ b, (headerBlock hs ++ body).head? = some b → b ≠ SP ∧ b ≠ TAB := by
  intro b hb
  cases hs with
  | nil => simp [headerBlock] at hb; subst hb; decide
  | cons x hs =>
    obtain ⟨n, v⟩ := x
    have hn := (h (n, v) (by simp)).1
    cases n with
    | nil => have := hn.1; simp at this
    | cons c n =>
      simp [headerBlock, headerLine] at hb
      subst hb
      have := hn.2.2 c (by simp)
      constructor
      · intro hx; rw [hx] at this; exact absurd this.1 (by decide)
      · intro hx; rw [hx] at this; exact absurd this.1 (by decide)

theorem mimeLoop_block (tl : List Byte) {t : List Byte} (htl : tl = NUL :: t) (body : List Byte) :
    ∀ (hs : List (List Byte × List Byte)) (pre : List Byte) (acc : List (List Byte × List Byte)) (fuel : Nat),
    hs.length < fuel → (∀ x ∈ hs, HeaderName x.1 ∧ HeaderValue x.2) →
    mimeLoop (pre ++ (headerBlock hs ++ body)) tl fuel pre.length acc =
      .ok (acc ++ hs) (pre.length + (headerBlock hs).length) := by
  intro hs
  induction hs with
  | nil =>
    intro pre acc fuel hf _
    obtain ⟨f, rfl⟩ : ∃ f, fuel = f + 1 := ⟨fuel - 1, by simp at hf; omega⟩
    simp only [headerBlock]
    have e : pre ++ ([CR, LF] ++ body) = pre ++ CR :: LF :: body := by simp
    rw [e]
    have h0 : byteAt (pre ++ CR :: LF :: body) tl pre.length = some CR := by
      rw [byteAt_lt (by simp), getElem?_pre]
    have h1 : byteAt (pre ++ CR :: LF :: body) tl (pre.length + 1) = some LF := by
      rw [byteAt_lt (by simp)]
      have := getElem?_pre (pre ++ [CR]) LF body
      simpa using this
    rw [mimeLoop, h0]
    simp only [h1]
    rw [if_neg (by decide), if_neg (by simp), if_pos (by simp)]
    simp
  | cons x hs ih =>
    intro pre acc fuel hf hx
    obtain ⟨n, v⟩ := x
    simp only [List.length_cons] at hf
    obtain ⟨f, rfl⟩ : ∃ f, fuel = f + 1 := ⟨fuel - 1, by omega⟩
    have ⟨hn, hv⟩ := hx (n, v) (by simp)
    have hxs : ∀ x ∈ hs, HeaderName x.1 ∧ HeaderValue x.2 := fun y hy => hx y (by simp [hy])
    simp only [headerBlock, List.append_assoc]
    have hr := readMimeHeader_line tl htl pre n v (headerBlock hs ++ body) hn hv
      (headerBlock_head hs body hxs)
    obtain ⟨b, hb, hb1⟩ : ∃ b, byteAt (pre ++ (headerLine n v ++ (headerBlock hs ++ body))) tl pre.length =
        some b ∧ 33 ≤ b.toNat := by
      cases n with
      | nil => have := hn.1; simp at this
      | cons c n =>
        refine ⟨c, ?_, (hn.2.2 c (by simp)).1⟩
        rw [byteAt_lt (by simp [headerLine])]
        simp only [headerLine, List.cons_append]
        exact getElem?_pre _ _ _
    rw [mimeLoop, hb]
    simp only [hr]
    have b1 : b ≠ LF := by intro h; rw [h] at hb1; exact absurd hb1 (by decide)
    have b2 : b ≠ CR := by intro h; rw [h] at hb1; exact absurd hb1 (by decide)
    rw [if_neg b1, if_neg (fun h => b2 h.1), if_neg (fun h => b2 h.1)]
    have := ih (pre ++ headerLine n v) (acc ++ [(n, v)]) f (by omega) hxs
    simp only [List.append_assoc, List.length_append, List.cons_append, List.nil_append] at this
    rw [this]
    congr 1
    simp only [List.length_append]
    omega

/-- Parsing a rendered header block followed by a body. -/
theorem mimeProcess_block (tl : List Byte) {t : List Byte} (htl : tl = NUL :: t)
    (hs : List (List Byte × List Byte)) (body : List Byte)
    (hx : ∀ x ∈ hs, HeaderName x.1 ∧ HeaderValue x.2) :
    mimeProcess tl (headerBlock hs ++ body) = .ok hs (headerBlock hs).length := by
  unfold mimeProcess
  cases hs with
  | nil =>
    have : ((headerBlock [] ++ body).length ≥ 2 ∧ (headerBlock [] ++ body)[0]? = some CR ∧
        (headerBlock [] ++ body)[1]? = some LF) := by simp [headerBlock]
    rw [if_pos (Or.inl this)]
    rw [if_neg (by simp [headerBlock]; decide)]
    rfl
  | cons x hs =>
    obtain ⟨n, v⟩ := x
    have ⟨hn, hv⟩ := hx (n, v) (by simp)
    obtain ⟨b, hb, hb1⟩ : ∃ b, (headerBlock ((n, v) :: hs) ++ body)[0]? = some b ∧ 33 ≤ b.toNat := by
      cases n with
      | nil => have := hn.1; simp at this
      | cons c n =>
        exact ⟨c, by simp [headerBlock, headerLine], (hn.2.2 c (by simp)).1⟩
    have b1 : b ≠ LF := by intro h; rw [h] at hb1; exact absurd hb1 (by decide)
    have b2 : b ≠ CR := by intro h; rw [h] at hb1; exact absurd hb1 (by decide)
    have hlen : ((n, v) :: hs).length < (headerBlock ((n, v) :: hs) ++ body).length + 1 := by
      have : ∀ hs : List (List Byte × List Byte), hs.length ≤ (headerBlock hs).length := by
        intro hs
        induction hs with
        | nil => simp
        | cons y hs ih => obtain ⟨a, b⟩ := y; simp [headerBlock, headerLine]; omega
      have := this ((n, v) :: hs)
      simp only [List.length_append]; omega
    rw [if_neg, if_neg]
    · have := mimeLoop_block tl htl body ((n, v) :: hs) [] [] _ hlen hx
      simpa using this
    · intro h
      have := List.length_eq_zero_iff.mp h
      rw [this] at hb; simp at hb
    · rw [hb]
      simp only [Option.some.injEq]
      rintro (h | h)
      · exact b2 h.2.1
      · exact b1 h.2

end Verif.Proof
