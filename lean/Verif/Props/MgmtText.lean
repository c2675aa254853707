import Verif.Spec.MgmtText
import Verif.Proof.XmlRpc
import Verif.Props.Chan0
/-!
# C107: the messages of channel 0 say what was asked for
-/
namespace Verif.Props
open Verif.Model Verif.Spec Verif.Proof

/-! ## The reader -/

theorem aux_mt_span {p : Byte → Bool} {c : Byte} (hc : p c = false) (r : List Byte) :
    ∀ v : List Byte, (∀ b ∈ v, p b = true) → (v ++ c :: r).takeWhile p = v ∧ (v ++ c :: r).dropWhile p = c :: r
  | [], _ => by simp [hc]
  | a :: v, h => by
    have ha := h a (by simp)
    have ih := aux_mt_span hc r v (fun b hb => h b (List.mem_cons_of_mem _ hb))
    simp [ha, ih.1, ih.2]

/-- The text of attributes. -/
def aux_mt_attrs : List (List Byte × List Byte) → List Byte
  | [] => []
  | (a, v) :: l => 32 :: (a ++ (61 :: 39 :: (v ++ (39 :: aux_mt_attrs l))))

/-- Attributes that can be written so. -/
structure aux_mt_good (l : List (List Byte × List Byte)) : Prop where
  names : ∀ a ∈ l, a.1 ≠ [] ∧ ∀ b ∈ a.1, isXmlName b = true
  values : ∀ a ∈ l, ∀ b ∈ a.2, isXmlValue 39 b = true
  nodup : (l.map (·.1)).Nodup

/-- The end of a start tag, behind spaces. -/
theorem aux_mt_attrs_end (n k : Nat) (c : Byte) (hc : c = 47 ∨ c = 62) (r : List Byte) :
    xmlAttrs (n + 1) (List.replicate k 32 ++ c :: r) = some ([], c :: r) := by
  have hs : isXmlSpace c = false := by rcases hc with h | h <;> rw [h] <;> decide
  have hr : ∀ b ∈ List.replicate k (32 : Byte), isXmlSpace b = true := by
    intro b hb; rw [(List.mem_replicate.mp hb).2]; decide
  rw [xmlAttrs, (aux_mt_span hs r _ hr).2]
  simp only
  rw [if_pos hc]

theorem aux_mt_attrs_read (k : Nat) (c : Byte) (hc : c = 47 ∨ c = 62) (r : List Byte) : ∀ (l : List (List Byte × List Byte)) (n : Nat),
    aux_mt_good l → xmlAttrs (n + l.length + 1) (aux_mt_attrs l ++ (List.replicate k 32 ++ c :: r)) = some (l, c :: r)
  | [], n, _ => by simpa [aux_mt_attrs] using aux_mt_attrs_end n k c hc r
  | (a, v) :: l, n, h => by
    obtain ⟨hne, hna⟩ := h.names (a, v) (by simp)
    have hv := h.values (a, v) (by simp)
    have hg : aux_mt_good l :=
      ⟨fun x hx => h.names x (List.mem_cons_of_mem _ hx), fun x hx => h.values x (List.mem_cons_of_mem _ hx), (List.nodup_cons.mp (show ((a, v).1 :: l.map (·.1)).Nodup from h.nodup)).2⟩
    have ih := aux_mt_attrs_read k c hc r l n hg
    simp only at hne hna hv
    match a, hne with
    | a0 :: a', _ =>
      have h0 := hna a0 (by simp)
      have hns : isXmlSpace a0 = false := by
        cases hsp : isXmlSpace a0 with
        | false => rfl
        | true => simp [isXmlName, hsp] at h0
      have h47 : ¬ (a0 = 47 ∨ a0 = 62) := by
        rintro (h | h) <;> (rw [h] at h0; exact absurd h0 (by decide))
      have e : aux_mt_attrs ((a0 :: a', v) :: l) ++ (List.replicate k 32 ++ c :: r) =
          32 :: a0 :: (a' ++ 61 :: (39 :: (v ++ 39 :: (aux_mt_attrs l ++ (List.replicate k 32 ++ c :: r))))) := by simp [aux_mt_attrs]
      have el : n + ((a0 :: a', v) :: l).length + 1 = (n + l.length + 1) + 1 := by simp only [List.length_cons]; omega
      generalize hR : aux_mt_attrs l ++ (List.replicate k 32 ++ c :: r) = R at *
      obtain ⟨s1, s2⟩ := aux_mt_span (p := isXmlName) (c := 61) (by decide) (39 :: (v ++ 39 :: R)) (a0 :: a') hna
      obtain ⟨t1, t2⟩ := aux_mt_span (p := isXmlValue 39) (c := 39) (by decide) R v hv
      have d1 : (32 :: a0 :: (a' ++ 61 :: (39 :: (v ++ 39 :: R)))).dropWhile isXmlSpace = a0 :: (a' ++ 61 :: (39 :: (v ++ 39 :: R))) := by
        have : isXmlSpace 32 = true := by decide
        simp [this, hns]
      have d2 : (61 :: 39 :: (v ++ 39 :: R)).dropWhile isXmlSpace = 61 :: 39 :: (v ++ 39 :: R) := by
        have : isXmlSpace 61 = false := by decide
        simp [this]
      have d3 : (39 :: (v ++ 39 :: R)).dropWhile isXmlSpace = 39 :: (v ++ 39 :: R) := by
        have : isXmlSpace 39 = false := by decide
        simp [this]
      have hnd : ¬ (l.any (fun x => x.1 == (a0 :: a')) = true) := by
        intro hany
        obtain ⟨x, hx, he⟩ := List.any_eq_true.mp hany
        have := (List.nodup_cons.mp (show ((a0 :: a') :: l.map (·.1)).Nodup from h.nodup)).1
        exact this (List.mem_map.mpr ⟨x, hx, by simpa using he⟩)
      rw [e, el, xmlAttrs, d1]
      simp only
      rw [if_neg h47, if_neg (by have : isXmlSpace 32 = true := by decide
                                 simp [this]), if_neg (by rw [h0]; simp)]
      simp only [List.cons_append] at s1 s2
      rw [s2, d2]
      simp only
      rw [if_neg (by simp), d3]
      simp only
      rw [if_neg (by simp), t2]
      simp only
      rw [if_neg (by simp), ih]
      simp only
      rw [s1, t1, if_neg hnd]

/-- A start tag. -/
theorem aux_mt_tag (name : List Byte) (l : List (List Byte × List Byte)) (k n : Nat) (empty : Bool) (r : List Byte) (hne : name ≠ [])
    (hname : ∀ b ∈ name, isXmlName b = true) (hl : aux_mt_good l) (hn : l.length + 1 ≤ n) :
    xmlTag n (name ++ (aux_mt_attrs l ++ (List.replicate k 32 ++ ((if empty then lit "/>" else lit ">") ++ r)))) = some (name, l, empty, r) := by
  obtain ⟨m, rfl⟩ : ∃ m, n = m + l.length + 1 := ⟨n - (l.length + 1), by omega⟩
  have hread : ∃ c tl, (c = 47 ∨ c = 62) ∧ (if empty then lit "/>" else lit ">") ++ r = c :: tl := by
    cases empty with
    | true => exact ⟨47, 62 :: r, .inl rfl, rfl⟩
    | false => exact ⟨62, r, .inr rfl, rfl⟩
  obtain ⟨c, tl, hc, he⟩ := hread
  have hattr := aux_mt_attrs_read k c hc tl l m hl
  rw [← he] at hattr
  have hhead : ∃ d tl', isXmlName d = false ∧ aux_mt_attrs l ++ (List.replicate k 32 ++ ((if empty then lit "/>" else lit ">") ++ r)) = d :: tl' := by
    cases l with
    | cons a l => exact ⟨32, _, by decide, rfl⟩
    | nil =>
      rw [he]
      cases k with
      | zero => exact ⟨c, tl, by rcases hc with h | h <;> rw [h] <;> decide, rfl⟩
      | succ k => exact ⟨32, List.replicate k 32 ++ c :: tl, by decide, by simp [aux_mt_attrs, List.replicate_succ]⟩
  generalize hT : aux_mt_attrs l ++ (List.replicate k 32 ++ ((if empty then lit "/>" else lit ">") ++ r)) = T at *
  obtain ⟨d, tl', hd, hde⟩ := hhead
  have hspan := aux_mt_span hd tl' name hname
  rw [← hde] at hspan
  rw [xmlTag, if_neg (by rw [hspan.1]; exact hne), hspan.2, hspan.1, hattr]
  simp only
  cases empty with
  | true =>
    have e : lit "/>" = [47, 62] := by decide
    have : (lit "/>").isPrefixOf ((if (true : Bool) = true then lit "/>" else lit ">") ++ r) = true := by rw [if_pos rfl, e]; simp [List.isPrefixOf]
    rw [if_pos this, if_pos rfl, e]; rfl
  | false =>
    have e : lit "/>" = [47, 62] := by decide
    have e' : lit ">" = [62] := by decide
    have : ¬ (lit "/>").isPrefixOf ((if (false : Bool) = true then lit "/>" else lit ">") ++ r) = true := by rw [if_neg (by simp), e, e']; simp [List.isPrefixOf]
    have h2 : (lit ">").isPrefixOf ((if (false : Bool) = true then lit "/>" else lit ">") ++ r) = true := by rw [if_neg (by simp), e']; simp [List.isPrefixOf]
    rw [if_neg this, if_pos h2, if_neg (by simp), e']; rfl

/-- Text before a tag. -/
theorem aux_mt_text (n : Nat) (t r : List Byte) (ht : ∀ b ∈ t, isXmlText b = true) (hr : (lit "![CDATA[").isPrefixOf r = false) :
    xmlText (n + 1) (t ++ 60 :: r) = some (t, 60 :: r) := by
  have h := aux_mt_span (p := isXmlText) (c := 60) (by decide) r t ht
  rw [xmlText, h.2]
  simp only
  rw [if_neg (by simp), if_neg (by rw [hr]; simp), h.1]

theorem aux_mt_cdataEnd : ∀ (t rest : List Byte), noCdataEnd t → xmlCdataEnd (t ++ (lit "]]>" ++ rest)) = some (t, rest)
  | [], rest, _ => by
    have : lit "]]>" = [93, 93, 62] := by decide
    simp [this, xmlCdataEnd]
  | b :: t, rest, h => by
    have e : lit "]]>" = [93, 93, 62] := by decide
    have ht : noCdataEnd t := by
      rintro ⟨a, c, rfl⟩
      exact h ⟨b :: a, c, by simp⟩
    have hne : (lit "]]>").isPrefixOf (b :: (t ++ (lit "]]>" ++ rest))) = false := by
      rw [e]
      by_cases h1 : b = 93
      · subst h1
        cases t with
        | nil => simp [List.isPrefixOf]
        | cons c t =>
          by_cases h2 : c = 93
          · subst h2
            cases t with
            | nil => simp [List.isPrefixOf]
            | cons d t =>
              by_cases h3 : d = 62
              · subst h3
                exact absurd ⟨[], t, by rw [e]; simp⟩ h
              · simp [List.isPrefixOf, Ne.symm h3]
          · simp [List.isPrefixOf, Ne.symm h2]
      · simp [List.isPrefixOf, Ne.symm h1]
    rw [List.cons_append, xmlCdataEnd, if_neg (by rw [hne]; simp), aux_mt_cdataEnd t rest ht]

/-- A CDATA section before a tag. -/
theorem aux_mt_section (n : Nat) (t r : List Byte) (ht : noCdataEnd t) (hr : (lit "![CDATA[").isPrefixOf r = false) :
    xmlText (n + 2) (lit "<![CDATA[" ++ (t ++ (lit "]]>" ++ 60 :: r))) = some (t, 60 :: r) := by
  have e : lit "<![CDATA[" = 60 :: lit "![CDATA[" := by decide
  have h60 : isXmlText 60 = false := by decide
  have hp : (lit "![CDATA[").isPrefixOf (lit "![CDATA[" ++ (t ++ (lit "]]>" ++ 60 :: r))) = true := List.isPrefixOf_iff_prefix.mpr ⟨_, rfl⟩
  have hd : (lit "![CDATA[" ++ (t ++ (lit "]]>" ++ 60 :: r))).drop 8 = t ++ (lit "]]>" ++ 60 :: r) := by
    have : (lit "![CDATA[").length = 8 := by decide
    rw [← this, List.drop_left]
  rw [e, List.cons_append, xmlText]
  simp only [List.dropWhile_cons, List.takeWhile_cons, h60, Bool.false_eq_true, if_false]
  rw [if_neg (by simp), if_pos hp, hd, aux_mt_cdataEnd _ _ ht]
  simp only
  have := aux_mt_text n [] r (by simp) hr
  simp only [List.nil_append] at this
  rw [this]
  simp

theorem aux_mt_endTag (name r : List Byte) : xmlEndTag name (lit "</" ++ (name ++ 62 :: r)) = some r := by
  have hp : (lit "</" ++ name).isPrefixOf (lit "</" ++ (name ++ 62 :: r)) = true := List.isPrefixOf_iff_prefix.mpr ⟨62 :: r, by simp⟩
  have hd : (lit "</" ++ (name ++ 62 :: r)).drop (name.length + 2) = 62 :: r := by
    have : (lit "</" ++ name).length = name.length + 2 := by
      rw [List.length_append, show (lit "</").length = 2 by decide]; omega
    rw [← this, ← List.append_assoc, List.drop_left]
  have h62 : isXmlSpace 62 = false := by decide
  rw [xmlEndTag, if_pos hp, hd]
  simp [h62]

theorem aux_mt_noCdata (l : List Byte) : (lit "![CDATA[").isPrefixOf (47 :: l) = false := by
  have : lit "![CDATA[" = 33 :: lit "[CDATA[" := by decide
  rw [this]; simp [List.isPrefixOf]

/-! ## Strings -/

theorem aux_mt_cstr {s : List Byte} (h : ∀ b ∈ s, b ≠ 0) : cstr s = s := by
  unfold cstr
  induction s with
  | nil => rfl
  | cons a s ih =>
    have ha := h a (by simp)
    have : decide (a ≠ NUL) = true := decide_eq_true ha
    rw [List.takeWhile_cons, this]
    simp only [if_true]
    rw [ih (fun b hb => h b (List.mem_cons_of_mem _ hb))]

theorem aux_mt_quotable {s : List Byte} (h : quotableText s) : cstr s = s ∧ ∀ b ∈ s, isXmlValue 39 b = true :=
  ⟨aux_mt_cstr (fun b hb => (h b hb).2.2.2), fun b hb => by simp [isXmlValue, (h b hb).1, (h b hb).2.1, (h b hb).2.2.1]⟩

theorem aux_mt_textual {s : List Byte} (h : textual s) : cstr s = s ∧ ∀ b ∈ s, isXmlText b = true :=
  ⟨aux_mt_cstr (fun b hb => (h b hb).2.2), fun b hb => by simp [isXmlText, (h b hb).1, (h b hb).2.1]⟩

theorem aux_mt_digits (n : Nat) : (∀ b ∈ printNat n, isXmlValue 39 b = true) ∧ (∀ b ∈ printNat n, IsDigit b) := by
  have h : ∀ b ∈ printNat n, IsDigit b := by
    intro b hb
    have := xr_digits_range _ _ b hb
    exact ⟨UInt8.le_iff_toNat_le.mp this.1, UInt8.le_iff_toNat_le.mp this.2⟩
  refine ⟨fun b hb => ?_, h⟩
  obtain ⟨h1, h2⟩ := h b hb
  have e1 : b ≠ 39 := by intro e; rw [e] at h1; simp at h1
  have e2 : b ≠ 60 := by intro e; rw [e] at h2; simp at h2
  have e3 : b ≠ 38 := by intro e; rw [e] at h1; simp at h1
  simp [isXmlValue, e1, e2, e3]

theorem aux_mt_leading : ∀ (k n : Nat), n < k → 0 < n → (printDigits k n).head? ≠ some 48
  | 0, n, h, _ => by omega
  | k + 1, n, h, hp => by
    rw [printDigits]
    split
    · rename_i h10
      simp only [List.head?_cons, ne_eq, Option.some.injEq]
      intro e
      have := congrArg UInt8.toNat e
      rw [UInt8.toNat_ofNat_of_lt' (by show 48 + n < 256; omega)] at this
      simp at this; omega
    · rename_i h10
      have hne : printDigits k (n / 10) ≠ [] := by
        cases k with
        | zero => omega
        | succ k => exact xr_digits_ne k _
      have ih := aux_mt_leading k (n / 10) (by omega) (by omega)
      cases hp : printDigits k (n / 10) with
      | nil => exact absurd hp hne
      | cons a t => rw [hp] at ih; simpa using ih

theorem aux_mt_number (n : Nat) (h : n ≤ 2147483647) : IsChanNumber n (printInt n) := by
  have e : printInt (n : Int) = printNat n := by
    unfold printInt
    rw [if_neg (by omega)]; simp
  rw [e]
  refine ⟨⟨(aux_mt_digits n).2, xr_digits_ne _ _, ?_, ?_⟩, h⟩
  · intro hh
    by_cases h0 : n = 0
    · subst h0; rfl
    · exact absurd hh (aux_mt_leading _ _ (by omega) (by omega))
  · have := xr_digits_val (n + 1) n (by omega)
    rw [← digitsVal_eq]
    exact this

theorem aux_mt_printInt (n : Nat) : printInt (n : Int) = printNat n := by
  unfold printInt
  rw [if_neg (by omega)]; simp

/-! ## The messages -/

theorem aux_mt_crlf : crlf.all isXmlSpace = true := by decide

theorem aux_mt_read_empty (name : List Byte) (l : List (List Byte × List Byte)) (k : Nat) (hne : name ≠ [])
    (hname : ∀ b ∈ name, isXmlName b = true) (hl : aux_mt_good l) :
    xmlRead (60 :: (name ++ (aux_mt_attrs l ++ (List.replicate k 32 ++ (lit "/>" ++ crlf))))) = some ⟨⟨name, l, none⟩, []⟩ := by
  have h60 : isXmlSpace 60 = false := by decide
  have hlen : ∀ l : List (List Byte × List Byte), l.length ≤ (aux_mt_attrs l).length := by
    intro l
    induction l with
    | nil => exact Nat.le_refl _
    | cons a l ih => simp only [aux_mt_attrs, List.length_cons, List.length_append]; omega
  have := aux_mt_tag name l k ((60 :: (name ++ (aux_mt_attrs l ++ (List.replicate k 32 ++ (lit "/>" ++ crlf))))).length + 1) true crlf hne hname hl (by
    have := hlen l
    simp only [List.length_cons, List.length_append]; omega)
  simp only [if_true] at this
  rw [xmlRead]
  simp only [List.dropWhile_cons, h60, Bool.false_eq_true, if_false]
  rw [if_neg (by simp), this]
  simp only
  rw [if_pos aux_mt_crlf]

theorem aux_mt_attrs_len : ∀ l : List (List Byte × List Byte), l.length ≤ (aux_mt_attrs l).length := by
  intro l
  induction l with
  | nil => exact Nat.le_refl _
  | cons a l ih => simp only [aux_mt_attrs, List.length_cons, List.length_append]; omega

/-- A root with text, written as `body`. -/
theorem aux_mt_read_text (name : List Byte) (l : List (List Byte × List Byte)) (k : Nat) (body t : List Byte) (hne : name ≠ [])
    (hname : ∀ b ∈ name, isXmlName b = true) (hl : aux_mt_good l)
    (ht : ∀ n, xmlText (n + 2) (body ++ (lit "</" ++ (name ++ 62 :: crlf))) = some (t, lit "</" ++ (name ++ 62 :: crlf))) :
    xmlRead (60 :: (name ++ (aux_mt_attrs l ++ (List.replicate k 32 ++ (lit ">" ++ (body ++ (lit "</" ++ (name ++ 62 :: crlf)))))))) =
      some ⟨⟨name, l, some t⟩, []⟩ := by
  have h60 : isXmlSpace 60 = false := by decide
  have := aux_mt_tag name l k ((60 :: (name ++ (aux_mt_attrs l ++ (List.replicate k 32 ++ (lit ">" ++ (body ++ (lit "</" ++ (name ++ 62 :: crlf)))))))).length + 1) false
    (body ++ (lit "</" ++ (name ++ 62 :: crlf))) hne hname hl (by
    have := aux_mt_attrs_len l
    simp only [List.length_cons, List.length_append]; omega)
  simp only [Bool.false_eq_true, if_false] at this
  rw [xmlRead]
  simp only [List.dropWhile_cons, h60, Bool.false_eq_true, if_false]
  rw [if_neg (by simp), this]
  simp only
  generalize hm : (60 :: (name ++ (aux_mt_attrs l ++ (List.replicate k 32 ++ (lit ">" ++ (body ++ (lit "</" ++ (name ++ 62 :: crlf)))))))).length = m
  have hm2 : 2 ≤ m := by
    rw [← hm]
    have : (lit "</").length = 2 := by decide
    simp only [List.length_cons, List.length_append, this]; omega
  obtain ⟨j, rfl⟩ : ∃ j, m = j + 2 := ⟨m - 2, by omega⟩
  rw [xmlKids, ht, ]
  simp only
  rw [aux_mt_endTag]
  simp only
  rw [if_pos aux_mt_crlf]

/-- The rest of an error message. -/
def aux_mt_errRest : Option (List Byte) → List Byte
  | none => lit "/>" ++ crlf
  | some t => lit ">" ++ (cstr t ++ (lit "</" ++ (lit "error" ++ 62 :: crlf)))

/-- An error that is written is read with its code and its text, if they can stand in XML as they are. What is missing:
`C107_error_text`. -/
theorem C107_error_partial (code : List Byte) (text lang : Option (List Byte)) (hc : quotableText code) (hl : ∀ l, lang = some l → quotableText l)
    (ht : ∀ t, text = some t → textual t) (valid : XmlDoc → Bool) (hv : ∀ d, d.root.name = lit "error" → valid d = true) :
    readError xmlRead valid (errorMessage code text lang) = some (some code, text) := by
  have hname : ∀ b ∈ lit "error", isXmlName b = true := by decide
  obtain ⟨c1, c2⟩ := aux_mt_quotable hc
  have attrs : ∃ l k, aux_mt_good l ∧ l.lookup (lit "code") = some code ∧ ∀ text,
      errorMessage code text lang = 60 :: (lit "error" ++ (aux_mt_attrs l ++ (List.replicate k 32 ++ aux_mt_errRest text))) := by
    have e1 : lit "<error code='" = 60 :: (lit "error" ++ 32 :: (lit "code" ++ [61, 39])) := by decide
    have e2 : lit "'" = [39] := by decide
    have e3 : lit " xml:lang='" = 32 :: (lit "xml:lang" ++ [61, 39]) := by decide
    have e4 : lit "' " = [39, 32] := by decide
    have e5 : lit " />" = 32 :: lit "/>" := by decide
    have e6 : lit " >" = 32 :: lit ">" := by decide
    have e7 : lit "</error>" = lit "</" ++ (lit "error" ++ [62]) := by decide
    cases lang with
    | none =>
      refine ⟨[(lit "code", code)], 1, ⟨by simp; decide, ?_, by simp⟩, by simp, ?_⟩
      · intro a ha; rw [List.mem_singleton.mp ha]; exact c2
      · intro text
        cases text <;> simp [errorMessage, aux_mt_errRest, aux_mt_attrs, c1, e1, e2, e5, e6, e7]
    | some la =>
      obtain ⟨l1, l2⟩ := aux_mt_quotable (hl la rfl)
      refine ⟨[(lit "code", code), (lit "xml:lang", la)], 2, ⟨by simp; decide, ?_, by simp only [List.map_cons, List.map_nil]; decide⟩, by simp, ?_⟩
      · intro a ha
        rcases List.mem_cons.mp ha with ha | ha
        · rw [ha]; exact c2
        · rw [List.mem_singleton.mp ha]; exact l2
      · intro text
        cases text <;> simp [errorMessage, aux_mt_errRest, aux_mt_attrs, c1, l1, e1, e2, e3, e4, e5, e6, e7, List.replicate]
  obtain ⟨l, k, hg, hlook, he⟩ := attrs
  have hread : xmlRead (errorMessage code text lang) = some ⟨⟨lit "error", l, text⟩, []⟩ := by
    rw [he text]
    cases text with
    | none => exact aux_mt_read_empty _ l k (by decide) hname hg
    | some t =>
      obtain ⟨t1, t2⟩ := aux_mt_textual (ht t rfl)
      rw [aux_mt_errRest, t1]
      refine aux_mt_read_text _ l k t t (by decide) hname hg (fun n => ?_)
      have : lit "</" = [60, 47] := by decide
      rw [this]
      exact aux_mt_text (n + 1) t (47 :: (lit "error" ++ 62 :: crlf)) t2 (aux_mt_noCdata _)
  rw [readError, hread]
  simp only
  rw [if_neg (by rw [hv _ rfl]; simp), if_neg (by simp), hlook]

example : quotableText (lit "554") ∧ textual (lit "transaction failed") := by
  constructor <;> (intro b hb; revert b; decide)

/-- The reader finds the name of the root where the text says it is. -/
theorem aux_mt_names : XmlNames (fun s => (xmlRead s).map XmlDoc.mgmt) := by
  intro body d name hp hname hpre
  obtain ⟨rest, rfl⟩ := hpre
  have hn : ∀ b ∈ name, isXmlName b = true := by
    simp only [List.mem_cons, List.not_mem_nil, or_false] at hname
    rcases hname with h | h | h | h <;> (subst h; decide)
  have hall : ∀ (l r : List Byte), (∀ b ∈ l, isXmlName b = true) → l <+: (l ++ r).takeWhile isXmlName := by
    intro l r h
    induction l with
    | nil => exact List.nil_prefix
    | cons a l ih =>
      rw [List.cons_append, List.takeWhile_cons, if_pos (h a (by simp))]
      exact (List.prefix_cons_inj _).mpr (ih (fun b hb => h b (List.mem_cons_of_mem _ hb)))
  have htag : ∀ n nm l e r, xmlTag n (name ++ rest) = some (nm, l, e, r) → name <+: nm := by
    intro n nm l e r h
    unfold xmlTag at h
    split at h
    · cases h
    · split at h
      · cases h
      · split at h
        · injection h with h; injection h with h1 _; rw [← h1]; exact hall _ _ hn
        · split at h
          · injection h with h; injection h with h1 _; rw [← h1]; exact hall _ _ hn
          · cases h
  have e : lit "<" ++ name ++ rest = 60 :: (name ++ rest) := by
    rw [show lit "<" = [60] by decide]; simp
  have h60 : isXmlSpace 60 = false := by decide
  simp only [Option.map_eq_some_iff] at hp
  obtain ⟨x, hx, rfl⟩ := hp
  rw [e, xmlRead] at hx
  simp only [List.dropWhile_cons, h60, Bool.false_eq_true, if_false] at hx
  rw [if_neg (by simp)] at hx
  split at hx
  · cases hx
  · rename_i nm l r1 ht
    split at hx
    · injection hx with hx; rw [← hx]; exact htag _ _ _ _ _ ht
    · cases hx
  · rename_i nm l r1 ht
    split at hx
    · cases hx
    · split at hx
      · injection hx with hx; rw [← hx]; exact htag _ _ _ _ _ ht
      · cases hx

/-- A request to close is read as the request that was written, with its code and its text, if these can stand in XML as they are. What is
missing: `C107_error_text`. -/
theorem C107_close_partial (num : Nat) (hnum : num ≤ 2147483647) (code : List Byte) (lang content : Option (List Byte)) (hc : quotableText code)
    (hl : ∀ l, lang = some l → quotableText l) (ht : ∀ t, content = some t → textual t) :
    mgmtReceive (fun s => (xmlRead s).map XmlDoc.mgmt) (closeMessage num code lang content) = .close num ∧
    ∃ d, xmlRead (closeMessage num code lang content) = some d ∧ d.root.name = lit "close" ∧
      d.root.attrs.lookup (lit "code") = some code ∧ d.root.text = content := by
  have hname : ∀ b ∈ lit "close", isXmlName b = true := by decide
  obtain ⟨c1, c2⟩ := aux_mt_quotable hc
  have hdig := (aux_mt_digits num).1
  rw [← aux_mt_printInt] at hdig
  have hcn : (lit "code" == lit "number") = false := by decide
  have attrs : ∃ l k, aux_mt_good l ∧ l.lookup (lit "number") = some (printInt num) ∧ l.lookup (lit "code") = some code ∧
      closeMessage num code lang content = 60 :: (lit "close" ++ (aux_mt_attrs l ++ (List.replicate k 32 ++ (match content with
        | none => lit "/>" ++ crlf
        | some t => lit ">" ++ (cstr t ++ (lit "</" ++ (lit "close" ++ 62 :: crlf))))))) := by
    have e1 : lit "<close number='" = 60 :: (lit "close" ++ 32 :: (lit "number" ++ [61, 39])) := by decide
    have e0 : lit "' code='" = 39 :: 32 :: (lit "code" ++ [61, 39]) := by decide
    have e2 : lit "'" = [39] := by decide
    have e3 : lit " xml:lang='" = 32 :: (lit "xml:lang" ++ [61, 39]) := by decide
    have e4 : lit "' " = [39, 32] := by decide
    have e5 : lit " />" = 32 :: lit "/>" := by decide
    have e6 : lit " >" = 32 :: lit ">" := by decide
    have e7 : lit "</close>" = lit "</" ++ (lit "close" ++ [62]) := by decide
    cases lang with
    | none =>
      refine ⟨[(lit "number", printInt num), (lit "code", code)], 1, ⟨by simp; decide, ?_, by simp only [List.map_cons, List.map_nil]; decide⟩,
        by simp, by simp [List.lookup, hcn], ?_⟩
      · intro a ha
        rcases List.mem_cons.mp ha with ha | ha
        · rw [ha]; exact hdig
        · rw [List.mem_singleton.mp ha]; exact c2
      · cases content <;> simp [closeMessage, aux_mt_attrs, c1, e0, e1, e2, e5, e6, e7]
    | some la =>
      obtain ⟨l1, l2⟩ := aux_mt_quotable (hl la rfl)
      refine ⟨[(lit "number", printInt num), (lit "code", code), (lit "xml:lang", la)], 2,
        ⟨by simp; decide, ?_, by simp only [List.map_cons, List.map_nil]; decide⟩, by simp, by simp [List.lookup, hcn], ?_⟩
      · intro a ha
        rcases List.mem_cons.mp ha with ha | ha
        · rw [ha]; exact hdig
        · rcases List.mem_cons.mp ha with ha | ha
          · rw [ha]; exact c2
          · rw [List.mem_singleton.mp ha]; exact l2
      · cases content <;> simp [closeMessage, aux_mt_attrs, c1, l1, e0, e1, e2, e3, e4, e5, e6, e7, List.replicate]
  obtain ⟨l, k, hg, hno, hlook, he⟩ := attrs
  have hread : xmlRead (closeMessage num code lang content) = some ⟨⟨lit "close", l, content⟩, []⟩ := by
    rw [he]
    cases content with
    | none => exact aux_mt_read_empty _ l k (by decide) hname hg
    | some t =>
      obtain ⟨t1, t2⟩ := aux_mt_textual (ht t rfl)
      simp only
      rw [t1]
      refine aux_mt_read_text _ l k t t (by decide) hname hg (fun n => ?_)
      have : lit "</" = [60, 47] := by decide
      rw [this]
      exact aux_mt_text (n + 1) t (47 :: (lit "close" ++ 62 :: crlf)) t2 (aux_mt_noCdata _)
  refine ⟨?_, _, hread, rfl, hlook, rfl⟩
  refine C96_close_partial _ aux_mt_names _ (XmlDoc.mgmt ⟨⟨lit "close", l, content⟩, []⟩) (by simp only [hread, Option.map_some]) num
    ⟨rfl, (by show (l.lookup (lit "code")).isSome = true; rw [hlook]; rfl), .inr ⟨_, hno, aux_mt_number num hnum⟩⟩ ?_
  show (l.lookup (lit "number")).isSome = true
  rw [hno]; rfl

/-- The body of a profile element. -/
theorem aux_mt_content (name : List Byte) (c : List Byte) (hc : sectionable c) (r : List Byte) (n : Nat) :
    xmlText (n + 2) (lit "<![CDATA[" ++ (cstr c ++ (lit "]]>" ++ (lit "</" ++ (name ++ 62 :: r))))) = some (c, lit "</" ++ (name ++ 62 :: r)) := by
  rw [aux_mt_cstr hc.2, show lit "</" = [60, 47] by decide]
  exact aux_mt_section n c (47 :: (name ++ 62 :: r)) hc.1 (aux_mt_noCdata _)

/-- A positive reply to a request to start a channel is read with the profile and the content that were written, if they can stand in XML
as they are. What is missing: `C107_section`, `C107_zero`, `C107_uri`. -/
theorem C107_reply_partial (uri : List Byte) (content : Option (List Byte)) (hu : quotableText uri) (hc : ∀ c, content = some c → sectionable c) :
    xmlRead (startReplyMessage uri content) = some ⟨⟨lit "profile", [(lit "uri", uri)], content⟩, []⟩ := by
  have hname : ∀ b ∈ lit "profile", isXmlName b = true := by decide
  obtain ⟨u1, u2⟩ := aux_mt_quotable hu
  have hg : aux_mt_good [(lit "uri", uri)] := ⟨by simp; decide, by intro a ha; rw [List.mem_singleton.mp ha]; exact u2, by simp⟩
  have e1 : lit "<profile uri='" = 60 :: (lit "profile" ++ 32 :: (lit "uri" ++ [61, 39])) := by decide
  have e2 : lit "'" = [39] := by decide
  have e5 : lit " />" = 32 :: lit "/>" := by decide
  have e6 : lit " >" = 32 :: lit ">" := by decide
  have e7 : lit "</profile>" = lit "</" ++ (lit "profile" ++ [62]) := by decide
  cases content with
  | none =>
    have e : startReplyMessage uri none = 60 :: (lit "profile" ++ (aux_mt_attrs [(lit "uri", uri)] ++ (List.replicate 1 32 ++ (lit "/>" ++ crlf)))) := by
      simp [startReplyMessage, aux_mt_attrs, u1, e1, e2, e5]
    rw [e]; exact aux_mt_read_empty _ _ 1 (by decide) hname hg
  | some c =>
    have e : startReplyMessage uri (some c) = 60 :: (lit "profile" ++ (aux_mt_attrs [(lit "uri", uri)] ++ (List.replicate 1 32 ++ (lit ">" ++
        ((lit "<![CDATA[" ++ (cstr c ++ lit "]]>")) ++ (lit "</" ++ (lit "profile" ++ 62 :: crlf))))))) := by
      simp [startReplyMessage, aux_mt_attrs, u1, e1, e2, e6, e7]
    rw [e]
    refine aux_mt_read_text _ _ 1 _ c (by decide) hname hg (fun n => ?_)
    have := aux_mt_content (lit "profile") c (hc c rfl) crlf n
    simpa using this

/-- A leaf of the tree. -/
theorem aux_mt_leaf_empty (name : List Byte) (l : List (List Byte × List Byte)) (k n : Nat) (r : List Byte) (hne : name ≠ [])
    (hname : ∀ b ∈ name, isXmlName b = true) (hl : aux_mt_good l) (hn : l.length + 1 ≤ n) :
    xmlLeaf n (name ++ (aux_mt_attrs l ++ (List.replicate k 32 ++ (lit "/>" ++ r)))) = some (⟨name, l, none⟩, r) := by
  have := aux_mt_tag name l k n true r hne hname hl hn
  simp only [if_true] at this
  rw [xmlLeaf, this]

theorem aux_mt_leaf_text (name : List Byte) (l : List (List Byte × List Byte)) (k n : Nat) (body t r : List Byte) (hne : name ≠ [])
    (hname : ∀ b ∈ name, isXmlName b = true) (hl : aux_mt_good l) (hn : l.length + 2 ≤ n)
    (ht : ∀ n, xmlText (n + 2) (body ++ (lit "</" ++ (name ++ 62 :: r))) = some (t, lit "</" ++ (name ++ 62 :: r))) :
    xmlLeaf n (name ++ (aux_mt_attrs l ++ (List.replicate k 32 ++ (lit ">" ++ (body ++ (lit "</" ++ (name ++ 62 :: r))))))) =
      some (⟨name, l, some t⟩, r) := by
  have := aux_mt_tag name l k n false (body ++ (lit "</" ++ (name ++ 62 :: r))) hne hname hl (by omega)
  simp only [Bool.false_eq_true, if_false] at this
  obtain ⟨j, rfl⟩ : ∃ j, n = j + 2 := ⟨n - 2, by omega⟩
  rw [xmlLeaf, this]
  simp only
  rw [ht j]
  simp only
  rw [aux_mt_endTag]
  simp

theorem aux_mt_kids (n : Nat) (leaf : List Byte) (e : XmlElem) (hn : 2 ≤ n)
    (hle : xmlLeaf n (lit "profile" ++ (leaf ++ (crlf ++ (lit "</" ++ (lit "start" ++ 62 :: crlf))))) =
      some (e, crlf ++ (lit "</" ++ (lit "start" ++ 62 :: crlf)))) :
    ∃ t, xmlKids (n + 1) (lit "start") (crlf ++ (lit "   " ++ (60 :: (lit "profile" ++ (leaf ++ (crlf ++ (lit "</" ++ (lit "start" ++ 62 :: crlf)))))))) =
      some (t, [e], crlf) := by
  obtain ⟨j, rfl⟩ : ∃ j, n = j + 2 := ⟨n - 2, by omega⟩
  have hws : ∀ b ∈ crlf ++ lit "   ", isXmlText b = true := by decide
  have hcr : ∀ b ∈ crlf, isXmlText b = true := by decide
  generalize hR : leaf ++ (crlf ++ (lit "</" ++ (lit "start" ++ 62 :: crlf))) = R at *
  have hno : (lit "![CDATA[").isPrefixOf (lit "profile" ++ R) = false := by
    rw [show lit "![CDATA[" = 33 :: lit "[CDATA[" by decide, show lit "profile" = 112 :: lit "rofile" by decide]
    simp [List.isPrefixOf]
  have t1 := aux_mt_text (j + 1) (crlf ++ lit "   ") (lit "profile" ++ R) hws hno
  rw [List.append_assoc] at t1
  have t2 : xmlText (j + 1) (crlf ++ (lit "</" ++ (lit "start" ++ 62 :: crlf))) = some (crlf, lit "</" ++ (lit "start" ++ 62 :: crlf)) := by
    have := aux_mt_text j crlf (47 :: (lit "start" ++ 62 :: crlf)) hcr (aux_mt_noCdata _)
    rw [show lit "</" = [60, 47] by decide]; exact this
  have hend : xmlEndTag (lit "start") (60 :: (lit "profile" ++ R)) = none := by
    have : (lit "</" ++ lit "start").isPrefixOf (60 :: (lit "profile" ++ R)) = false := by
      rw [show lit "</" ++ lit "start" = 60 :: 47 :: lit "start" by decide, show lit "profile" = 112 :: lit "rofile" by decide]
      simp [List.isPrefixOf]
    rw [xmlEndTag, if_neg (by rw [this]; simp)]
  refine ⟨(crlf ++ lit "   ") ++ crlf, ?_⟩
  rw [xmlKids, t1]
  simp only
  rw [hend]
  simp only [List.drop_succ_cons, List.drop_zero]
  rw [hle]
  simp only
  rw [xmlKids, t2]
  simp only
  rw [aux_mt_endTag]

/-- The rest of a start message. -/
def aux_mt_startRest (uri : List Byte) (base64 : Bool) (content : Option (List Byte)) : List Byte :=
  lit ">" ++ (crlf ++ (lit "   <profile uri='" ++ (cstr uri ++ (lit "'" ++ ((if base64 then lit " encoding='base64'" else []) ++
    ((match content with
      | some c => lit ">" ++ (lit "<![CDATA[" ++ (cstr c ++ (lit "]]>" ++ (lit "</profile>" ++ crlf))))
      | none => lit " />" ++ crlf) ++ (lit "</start>" ++ crlf)))))))

/-- A request to start a channel is read as the request that was written: for the same number, serverName, profile, encoding and content, if
these can stand in XML as they are. What is missing: `C107_server_name`, `C107_section`, `C107_zero`, `C107_uri`. -/
theorem C107_start_partial (num : Nat) (hnum : num ≤ 2147483647) (serverName : Option (List Byte)) (uri : List Byte) (base64 : Bool)
    (content : Option (List Byte)) (hs : ∀ s, serverName = some s → quotableText s) (hu : quotableText uri)
    (hc : ∀ c, content = some c → sectionable c) :
    mgmtReceive (fun s => (xmlRead s).map XmlDoc.mgmt) (startMessage num serverName uri base64 content) =
      .start num (some uri) content serverName (if base64 then .base64 else .none) := by
  obtain ⟨u1, u2⟩ := aux_mt_quotable hu
  have hdig := (aux_mt_digits num).1
  rw [← aux_mt_printInt] at hdig
  have e1 : lit "<start number='" = 60 :: (lit "start" ++ 32 :: (lit "number" ++ [61, 39])) := by decide
  have e2 : lit "'" = [39] := by decide
  have e3 : lit " serverName='" = 32 :: (lit "serverName" ++ [61, 39]) := by decide
  have e4 : lit "   <profile uri='" = lit "   " ++ 60 :: (lit "profile" ++ 32 :: (lit "uri" ++ [61, 39])) := by decide
  have e5 : lit " />" = 32 :: lit "/>" := by decide
  have e6 : lit " encoding='base64'" = 32 :: (lit "encoding" ++ 61 :: 39 :: (lit "base64" ++ [39])) := by decide
  have e7 : lit "</profile>" = lit "</" ++ (lit "profile" ++ [62]) := by decide
  have e8 : lit "</start>" = lit "</" ++ (lit "start" ++ [62]) := by decide
  -- the attributes of the root
  have root : ∃ l, aux_mt_good l ∧ l.lookup (lit "number") = some (printInt num) ∧ l.lookup (lit "serverName") = serverName ∧
      startMessage num serverName uri base64 content = 60 :: (lit "start" ++ (aux_mt_attrs l ++ aux_mt_startRest uri base64 content)) := by
    have hsn : (lit "serverName" == lit "number") = false := by decide
    cases serverName with
    | none =>
      exact ⟨[(lit "number", printInt num)], ⟨by simp; decide, by intro a ha; rw [List.mem_singleton.mp ha]; exact hdig, by simp⟩,
        by simp, by simp [List.lookup, hsn], by simp [startMessage, aux_mt_startRest, aux_mt_attrs, e1, e2]; rfl⟩
    | some s =>
      obtain ⟨s1, s2⟩ := aux_mt_quotable (hs s rfl)
      refine ⟨[(lit "number", printInt num), (lit "serverName", s)], ⟨by simp; decide, ?_, by simp only [List.map_cons, List.map_nil]; decide⟩,
        by simp, by simp [List.lookup, hsn], by simp [startMessage, aux_mt_startRest, aux_mt_attrs, e1, e2, e3, s1]; rfl⟩
      intro a ha
      rcases List.mem_cons.mp ha with ha | ha
      · rw [ha]; exact hdig
      · rw [List.mem_singleton.mp ha]; exact s2
  -- the attributes of the profile
  have prof : ∃ l, aux_mt_good l ∧ l.lookup (lit "uri") = some uri ∧
      l.lookup (lit "encoding") = (if base64 then some (lit "base64") else none) ∧ l.length ≤ 2 ∧
      ∀ X, lit "   <profile uri='" ++ (cstr uri ++ (lit "'" ++ ((if base64 then lit " encoding='base64'" else []) ++ X))) =
        lit "   " ++ 60 :: (lit "profile" ++ (aux_mt_attrs l ++ X)) := by
    have hsn : (lit "encoding" == lit "uri") = false := by decide
    cases base64 with
    | false =>
      exact ⟨[(lit "uri", uri)], ⟨by simp; decide, by intro a ha; rw [List.mem_singleton.mp ha]; exact u2, by simp⟩,
        by simp, by simp [List.lookup, hsn], by simp, by intro X; simp [aux_mt_attrs, e2, e4, u1]⟩
    | true =>
      refine ⟨[(lit "uri", uri), (lit "encoding", lit "base64")], ⟨by simp; decide, ?_, by simp only [List.map_cons, List.map_nil]; decide⟩,
        by simp, by simp [List.lookup, hsn], by simp, by intro X; simp [aux_mt_attrs, e2, e4, e6, u1]⟩
      intro a ha
      rcases List.mem_cons.mp ha with ha | ha
      · rw [ha]; exact u2
      · rw [List.mem_singleton.mp ha]; decide
  obtain ⟨l, hg, hno, hse, hl⟩ := root
  obtain ⟨l', hg', huri, henc, hlen, hl'⟩ := prof
  -- the profile
  have leaf : ∃ body, startMessage num serverName uri base64 content = 60 :: (lit "start" ++ (aux_mt_attrs l ++ (List.replicate 0 32 ++ (lit ">" ++
        (crlf ++ (lit "   " ++ (60 :: (lit "profile" ++ (body ++ (crlf ++ (lit "</" ++ (lit "start" ++ 62 :: crlf))))))))))))  ∧
      ∀ n, 4 ≤ n → xmlLeaf n (lit "profile" ++ (body ++ (crlf ++ (lit "</" ++ (lit "start" ++ 62 :: crlf))))) =
        some (⟨lit "profile", l', content⟩, crlf ++ (lit "</" ++ (lit "start" ++ 62 :: crlf))) := by
    have hname : ∀ b ∈ lit "profile", isXmlName b = true := by decide
    cases content with
    | none =>
      refine ⟨aux_mt_attrs l' ++ (List.replicate 1 32 ++ lit "/>"), ?_, ?_⟩
      · rw [hl]
        unfold aux_mt_startRest
        rw [hl', e5, e8]
        simp
      · intro n hn
        have := aux_mt_leaf_empty (lit "profile") l' 1 n (crlf ++ (lit "</" ++ (lit "start" ++ 62 :: crlf))) (by decide) hname hg' (by omega)
        simpa using this
    | some c =>
      refine ⟨aux_mt_attrs l' ++ (lit ">" ++ (lit "<![CDATA[" ++ (cstr c ++ (lit "]]>" ++ (lit "</" ++ (lit "profile" ++ [62])))))), ?_, ?_⟩
      · rw [hl]
        unfold aux_mt_startRest
        rw [hl', e7, e8]
        simp
      · intro n hn
        have := aux_mt_leaf_text (lit "profile") l' 0 n (lit "<![CDATA[" ++ (cstr c ++ lit "]]>")) c (crlf ++ (lit "</" ++ (lit "start" ++ 62 :: crlf)))
          (by decide) hname hg' (by omega) (fun m => by
            have := aux_mt_content (lit "profile") c (hc c rfl) (crlf ++ (lit "</" ++ (lit "start" ++ 62 :: crlf))) m
            simpa using this)
        simpa using this
  obtain ⟨body, hmsg, hleaf⟩ := leaf
  have hread : ∃ t, xmlRead (startMessage num serverName uri base64 content) = some ⟨⟨lit "start", l, some t⟩, [⟨lit "profile", l', content⟩]⟩ := by
    rw [hmsg]
    generalize hm : (60 :: (lit "start" ++ (aux_mt_attrs l ++ (List.replicate 0 32 ++ (lit ">" ++
        (crlf ++ (lit "   " ++ (60 :: (lit "profile" ++ (body ++ (crlf ++ (lit "</" ++ (lit "start" ++ 62 :: crlf)))))))))))) : List Byte).length = m
    have hm1 : l.length + 5 ≤ m := by
      rw [← hm]
      have := aux_mt_attrs_len l
      have h2 : (lit "start").length = 5 := by decide
      simp only [List.length_cons, List.length_append, h2]; omega
    obtain ⟨t, ht⟩ := aux_mt_kids m body ⟨lit "profile", l', content⟩ (by omega) (hleaf m (by omega))
    have htag := aux_mt_tag (lit "start") l 0 (m + 1) false (crlf ++ (lit "   " ++ (60 :: (lit "profile" ++ (body ++ (crlf ++ (lit "</" ++ (lit "start" ++ 62 :: crlf))))))))
      (by decide) (by decide) hg (by omega)
    simp only [Bool.false_eq_true, if_false] at htag
    have h60 : isXmlSpace 60 = false := by decide
    refine ⟨t, ?_⟩
    rw [xmlRead, hm]
    simp only [List.dropWhile_cons, h60, Bool.false_eq_true, if_false]
    rw [if_neg (by simp), htag]
    simp only
    rw [ht]
    simp only
    rw [if_pos aux_mt_crlf]
  obtain ⟨t, hread⟩ := hread
  refine C96_start _ aux_mt_names _ (XmlDoc.mgmt ⟨⟨lit "start", l, some t⟩, [⟨lit "profile", l', content⟩]⟩) (by simp only [hread, Option.map_some]) num
    uri content serverName _ ⟨rfl, ⟨_, hno, aux_mt_number num hnum⟩, hse, ⟨lit "profile", l'⟩, rfl, rfl, huri, ?_⟩
  cases base64 with
  | true => exact .inr ⟨rfl, henc⟩
  | false => exact .inl ⟨rfl, .inl henc⟩

example : mgmtReceive (fun s => (xmlRead s).map XmlDoc.mgmt) (startMessage 3 (some (lit "a.example")) (lit "urn:x") false (some (lit "<hello/>"))) =
    .start 3 (some (lit "urn:x")) (some (lit "<hello/>")) (some (lit "a.example")) .none :=
  C107_start_partial 3 (by decide) _ _ false _ (by intro s h; cases h; intro b hb; revert b; decide) (by intro b hb; revert b; decide)
    (by intro c h; cases h
        exact ⟨by rintro ⟨a, b, h⟩
                  have h62 : lit "]]>" = [93, 93, 62] := by decide
                  have : (93 : Byte) ∈ lit "<hello/>" := by rw [h, h62]; simp
                  exact absurd this (by decide), by decide⟩)

/-- The positive answer to a request to close is an XML document `ok`, and taken for one whatever the XML library does. -/
theorem C107_ok (parse : List Byte → Option XmlDoc) (valid : XmlDoc → Bool) :
    xmlRead okMessage = some ⟨⟨lit "ok", [], none⟩, []⟩ ∧ readCloseReply parse valid okMessage = true := by
  have : cstr okMessage = okMessage := by decide
  refine ⟨by decide +kernel, ?_⟩
  rw [readCloseReply, if_pos this]

/-- Nothing else is taken for a positive answer to a request to close: only that text, or another valid document whose root is `ok`. -/
theorem C107_close_answer (parse : List Byte → Option XmlDoc) (valid : XmlDoc → Bool) (body : List Byte) :
    readCloseReply parse valid body = true ↔
      cstr body = lit "<ok />" ∨ ∃ d, parse body = some d ∧ valid d = true ∧ d.root.name = lit "ok" := by
  have e : okMessage = lit "<ok />" := by decide
  unfold readCloseReply
  rw [e]
  by_cases h : cstr body = lit "<ok />"
  · simp [h]
  · rw [if_neg h]
    cases parse body with
    | none => simp [h]
    | some d => cases hv : valid d <;> simp [h, hv]

example : readCloseReply xmlRead (fun _ => true) (lit "<ok></ok>") = true ∧ readCloseReply xmlRead (fun _ => true) (lit "<error code='550' />") = false := by
  decide +kernel

/-- The full property: every message is read as what it was written from. -/
def C107_statement : Prop :=
  (∀ (num : Nat) (serverName : Option (List Byte)) (uri : List Byte) (base64 : Bool) (content : Option (List Byte)), num ≤ 2147483647 →
    mgmtReceive (fun s => (xmlRead s).map XmlDoc.mgmt) (startMessage num serverName uri base64 content) =
      .start num (some uri) content serverName (if base64 then .base64 else .none)) ∧
  (∀ (code : List Byte) (text lang : Option (List Byte)),
    readError xmlRead (fun d => decide (d.root.name = lit "error")) (errorMessage code text lang) = some (some code, text))

/-- A quote in the serverName ends it: the rest is read as further attributes. -/
theorem C107_server_name :
    mgmtReceive (fun s => (xmlRead s).map XmlDoc.mgmt) (startMessage 3 (some (lit "a.example' x='b")) (lit "urn:x") false none) =
      .start 3 (some (lit "urn:x")) none (some (lit "a.example")) .none := by
  decide +kernel

/-- The end of a CDATA section in the content: another section behind it is joined, and the marks are lost; and the content of one profile
becomes a second profile in the message. -/
theorem C107_section :
    mgmtReceive (fun s => (xmlRead s).map XmlDoc.mgmt) (startMessage 3 none (lit "urn:x") false (some (lit "a]]><![CDATA[b"))) =
      .start 3 (some (lit "urn:x")) (some (lit "ab")) none .none ∧
    (xmlRead (startMessage 3 none (lit "urn:x") false (some (lit "]]></profile><profile uri='urn:y'><![CDATA[")))).map (fun d => d.kids) =
      some [⟨lit "profile", [(lit "uri", lit "urn:x")], some []⟩, ⟨lit "profile", [(lit "uri", lit "urn:y")], some []⟩] := by
  decide +kernel

/-- Content with a zero octet is cut there, although its size is given. -/
theorem C107_zero (c d : List Byte) (hc : sectionable c) (uri : List Byte) (hu : quotableText uri) (num : Nat) (hnum : num ≤ 2147483647) :
    mgmtReceive (fun s => (xmlRead s).map XmlDoc.mgmt) (startMessage num none uri false (some (c ++ 0 :: d))) =
      .start num (some uri) (some c) none .none := by
  have e : cstr (c ++ 0 :: d) = cstr c := by
    rw [aux_mt_cstr hc.2]
    unfold cstr
    exact (aux_mt_span (p := fun b => decide (b ≠ NUL)) (c := 0) (by decide) d c (fun b hb => decide_eq_true (hc.2 b hb))).1
  have : startMessage num none uri false (some (c ++ 0 :: d)) = startMessage num none uri false (some c) := by
    unfold startMessage
    simp only [e]
  rw [this]
  exact C107_start_partial num hnum none uri false (some c) (by simp) hu (by intro x h; cases h; exact hc)

/-- An ampersand in the profile makes a request nobody can read: the peer refuses it. -/
theorem C107_uri :
    mgmtReceive (fun s => (xmlRead s).map XmlDoc.mgmt) (startMessage 3 none (lit "http://x.example/?a=1&b=2") false none) = .refused := by
  decide +kernel

/-- An error whose text holds `<` is not read as an error; the text of an error is not written as a section as the content of a profile is. -/
theorem C107_error_text (valid : XmlDoc → Bool) : readError xmlRead valid (errorMessage (lit "554") (some (lit "n < 3 expected")) none) = none := by
  have : xmlRead (errorMessage (lit "554") (some (lit "n < 3 expected")) none) = none := by decide +kernel
  rw [readError, this]

theorem C107_statement_false : ¬ C107_statement := by
  intro h
  have h1 := h.1 3 (some (lit "a.example' x='b")) (lit "urn:x") false none (by decide)
  have h2 := C107_server_name
  rw [show ((3 : Nat) : Int) = 3 from rfl] at h1
  rw [h1] at h2
  exact absurd h2 (by decide)

end Verif.Props
