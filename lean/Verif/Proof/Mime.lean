import Verif.Model.Mime
import Verif.Spec.Mime
/-!
# Lemmas about MIME processing
-/
namespace Verif.Proof
open Verif.Model Verif.Spec

theorem nameEnd_spec (p : List Byte) (mark : Nat) : ∀ (fuel it : Nat), mark ≤ it → it ≤ p.length →
    p.length - it ≤ fuel →
    it ≤ nameEnd p mark fuel it ∧ nameEnd p mark fuel it ≤ p.length ∧
    (∀ k, it ≤ k → k < nameEnd p mark fuel it → p[k]? ≠ some LF ∧ p[k]? ≠ some CR) := by
  intro fuel
  induction fuel with
  | zero =>
    intro it _ h1 h2
    refine ⟨Nat.le_refl _, h1, ?_⟩
    intro k hk hk2
    simp only [nameEnd] at hk2
    omega
  | succ fuel ih =>
    intro it hm h1 h2
    simp only [nameEnd]
    cases hb : p[it]? with
    | none => refine ⟨Nat.le_refl _, h1, ?_⟩; intro k a b; simp only at b; omega
    | some b =>
      simp only
      split
      · rename_i hc
        have hlt : it < p.length := by
          rcases Nat.lt_or_ge it p.length with h | h
          · exact h
          · rw [List.getElem?_eq_none h] at hb; simp at hb
        obtain ⟨i1, i2, i3⟩ := ih (it + 1) (by omega) (by omega) (by omega)
        refine ⟨by omega, i2, ?_⟩
        intro k hk hk2
        rcases Nat.eq_or_lt_of_le hk with h | h
        · subst h
          rw [hb]
          have : 33 ≤ b.toNat := hc.2.2.2.2.1
          constructor
          · intro h; simp only [Option.some.injEq] at h; rw [h] at this; revert this; decide
          · intro h; simp only [Option.some.injEq] at h; rw [h] at this; revert this; decide
        · exact i3 k h hk2
      · refine ⟨Nat.le_refl _, h1, ?_⟩; intro k a b; omega

theorem byteAt_lt {p tl : List Byte} {i : Nat} (h : i < p.length) : byteAt p tl i = p[i]? := by
  unfold byteAt
  rw [List.getElem?_append_left h]

theorem byteAt_end {p tl : List Byte} {b : Byte} {t : List Byte} (htl : tl = b :: t) :
    byteAt p tl p.length = some b := by
  subst htl
  unfold byteAt
  rw [List.getElem?_append_right (Nat.le_refl _)]
  simp

theorem skipSpaces_stay {p : List Byte} {it : Nat} (h : p[it]? ≠ some SP) : ∀ fuel,
    skipSpaces p fuel it = it
  | 0 => rfl
  | fuel + 1 => by simp [skipSpaces, h]

/-- What the content loop guarantees about the octets it walks over. -/
theorem contentEnd_spec (p tl : List Byte) {t : List Byte} (htl : tl = NUL :: t) : ∀ (fuel it : Nat),
    it ≤ p.length → p.length - it < fuel →
    ∃ e, contentEnd p tl fuel it = some e ∧ it ≤ e ∧ e ≤ p.length ∧
      (∀ k, it ≤ k → k < e → p[k]? = some LF → p[k + 1]? = some SP ∨ p[k + 1]? = some TAB) ∧
      (e < p.length → p[e]? = some LF ∨ (p[e]? = some CR ∧ p[e + 1]? = some LF)) := by
  intro fuel
  induction fuel with
  | zero => intro it _ h; omega
  | succ fuel ih =>
    intro it h1 h2
    have hnb : ∀ i, i ≤ p.length → ∃ b, notBlankAt p tl i = some b ∧
        (b = false → p[i]? = some SP ∨ p[i]? = some TAB) := by
      intro i hi
      rcases Nat.lt_or_ge i p.length with h | h
      · refine ⟨decide (p[i] ≠ SP ∧ p[i] ≠ TAB), ?_, ?_⟩
        · unfold notBlankAt
          rw [byteAt_lt h, List.getElem?_eq_getElem h]; rfl
        · intro hb
          rw [List.getElem?_eq_getElem h]
          have hb := of_decide_eq_false hb
          by_cases hs : p[i] = SP
          · left; rw [hs]
          · right
            by_cases ht : p[i] = TAB
            · rw [ht]
            · exact absurd ⟨hs, ht⟩ hb
      · have : i = p.length := by omega
        subst this
        refine ⟨true, ?_, ?_⟩
        · unfold notBlankAt
          rw [byteAt_end htl]; rfl
        · simp
    unfold contentEnd
    -- first test
    have ht1 : ∃ s1, (if it + 1 < p.length ∧ p[it]? = some CR ∧ p[it + 1]? = some LF then
        notBlankAt p tl (it + 2) else some false) = some s1 ∧
        (s1 = true → it < p.length ∧ p[it]? = some CR ∧ p[it + 1]? = some LF) := by
      by_cases hc : it + 1 < p.length ∧ p[it]? = some CR ∧ p[it + 1]? = some LF
      · obtain ⟨b, hb, _⟩ := hnb (it + 2) (by omega)
        exact ⟨b, by rw [if_pos hc, hb], fun _ => ⟨by omega, hc.2⟩⟩
      · exact ⟨false, by rw [if_neg hc], by simp⟩
    have ht2 : ∃ s2, (if it < p.length ∧ p[it]? = some LF then
        notBlankAt p tl (it + 1) else some false) = some s2 ∧
        (s2 = true → it < p.length ∧ p[it]? = some LF) ∧
        (s2 = false → p[it]? = some LF → p[it + 1]? = some SP ∨ p[it + 1]? = some TAB) := by
      by_cases hc : it < p.length ∧ p[it]? = some LF
      · obtain ⟨b, hb, hb2⟩ := hnb (it + 1) (by omega)
        exact ⟨b, by rw [if_pos hc, hb], fun _ => hc, fun h _ => hb2 h⟩
      · refine ⟨false, by rw [if_neg hc], by simp, ?_⟩
        intro _ hl
        exfalso
        apply hc
        refine ⟨?_, hl⟩
        rcases Nat.lt_or_ge it p.length with h | h
        · exact h
        · rw [List.getElem?_eq_none h] at hl; simp at hl
    obtain ⟨s1, e1, r1⟩ := ht1
    obtain ⟨s2, e2, r2, r3⟩ := ht2
    simp only [e1, e2]
    cases s1 with
    | true =>
      refine ⟨it, by simp, Nat.le_refl _, h1, ?_, ?_⟩
      · intro k a b; omega
      · intro _; exact Or.inr (r1 rfl).2
    | false =>
      cases s2 with
      | true =>
        refine ⟨it, by simp, Nat.le_refl _, h1, ?_, ?_⟩
        · intro k a b; omega
        · intro _; exact Or.inl (r2 rfl).2
      | false =>
        by_cases hl : it = p.length
        · refine ⟨it, by simp [hl], Nat.le_refl _, h1, ?_, ?_⟩
          · intro k a b; omega
          · omega
        · obtain ⟨e, i1, i2, i3, i4, i5⟩ := ih (it + 1) (by omega) (by omega)
          refine ⟨e, by simp [hl, i1], by omega, i3, ?_, i5⟩
          intro k hk hk2 hlf
          rcases Nat.eq_or_lt_of_le hk with h | h
          · subst h; exact r3 rfl hlf
          · exact i4 k h hk2 hlf

/-- What reading one header guarantees, from any position up to the end. -/
theorem readMimeHeader_spec (p tl : List Byte) {t : List Byte} (htl : tl = NUL :: t) (it : Nat)
    (h : it ≤ p.length) :
    readMimeHeader p tl it = .fail ∨
    ∃ name content next, readMimeHeader p tl it = .ok name content next ∧ it + 1 < next ∧
      ((next ≤ p.length ∧ p[next - 1]? = some LF) ∨ (next = p.length + 2)) ∧
      (∀ j m, it < j → j < next → ¬ EmptyLineAt p j m) := by
  obtain ⟨n1, n2, n3⟩ := nameEnd_spec p it p.length it (Nat.le_refl _) h (by omega)
  unfold readMimeHeader
  simp only
  generalize nameEnd p it p.length it = c at *
  rcases Nat.lt_or_ge c p.length with hc | hc
  · rw [byteAt_lt hc, List.getElem?_eq_getElem hc]
    simp only
    split
    · exact Or.inl rfl
    · split
      · exact Or.inl rfl
      · split
        · exact Or.inl rfl
        · rename_i hb1 _ _
          have hns : p[c]? ≠ some SP := by
            rw [List.getElem?_eq_getElem hc]
            intro hx
            simp only [Option.some.injEq] at hx
            rw [hx] at hb1
            exact hb1 (Or.inr (by decide))
          rw [skipSpaces_stay hns, byteAt_lt hc, List.getElem?_eq_getElem hc]
          simp only
          split
          · exact Or.inl rfl
          · rename_i hcol
            have hcol : p[c] = COLON := by
              rcases Classical.em (p[c] = COLON) with h | h
              · exact h
              · exact absurd h hcol
            obtain ⟨e, e1, e2, e3, e4, e5⟩ := contentEnd_spec p tl htl (p.length + 1) c (by omega)
              (by omega)
            rw [e1]
            simp only
            have hce : c < e := by
              rcases Nat.lt_or_ge c e with h | h
              · exact h
              · have : e = c := by omega
                subst this
                have := e5 hc
                rw [List.getElem?_eq_getElem hc, hcol] at this
                rcases this with h | h
                · simp only [Option.some.injEq] at h; exact absurd h (by decide)
                · have := h.1; simp only [Option.some.injEq] at this; exact absurd this (by decide)
            right
            -- no empty line starts after `it` and not after `e`
            have hno : ∀ j m, it < j → j ≤ e → ¬ EmptyLineAt p j m := by
              intro j m h1 h2 hel
              have hlf : p[j - 1]? = some LF := by
                rcases hel.1 with h | h
                · omega
                · exact h
              rcases Nat.lt_or_ge (j - 1) c with h3 | h3
              · exact (n3 (j - 1) (by omega) h3).1 hlf
              · have hb := e4 (j - 1) h3 (by omega) hlf
                rw [show j - 1 + 1 = j by omega] at hb
                rcases hel.2 with h4 | h4
                · rw [h4.1] at hb; revert hb; decide
                · rw [h4.1] at hb; revert hb; decide
            rcases Nat.lt_or_ge e p.length with he | he
            · rw [byteAt_lt he, List.getElem?_eq_getElem he]
              simp only
              refine ⟨_, _, _, rfl, ?_, ?_, ?_⟩
              · split <;> omega
              · left
                split
                · rename_i hl
                  refine ⟨by omega, ?_⟩
                  rw [show e + 1 - 1 = e by omega, List.getElem?_eq_getElem he, hl]
                · rename_i hl
                  rcases e5 he with h | h
                  · rw [List.getElem?_eq_getElem he] at h
                    simp only [Option.some.injEq] at h
                    exact absurd h hl
                  · have h2 := h.2
                    have : e + 1 < p.length := by
                      rcases Nat.lt_or_ge (e + 1) p.length with h | h
                      · exact h
                      · rw [List.getElem?_eq_none h] at h2; simp at h2
                    exact ⟨by omega, h2⟩
              · intro j m h1 h2
                split at h2
                · exact hno j m h1 (by omega)
                · rename_i hl
                  rcases Nat.lt_or_ge e j with h3 | h3
                  · have : j = e + 1 := by omega
                    subst this
                    intro hel
                    rcases hel.1 with h4 | h4
                    · omega
                    · rw [show e + 1 - 1 = e by omega, List.getElem?_eq_getElem he] at h4
                      simp only [Option.some.injEq] at h4
                      exact hl h4
                  · exact hno j m h1 h3
            · have : e = p.length := by omega
              subst this
              rw [byteAt_end htl]
              simp only
              refine ⟨_, _, _, rfl, ?_, ?_, ?_⟩
              · rw [if_neg (by decide)]; omega
              · right; rw [if_neg (by decide)]
              · intro j m h1 h2
                rcases Nat.lt_or_ge p.length j with h3 | h3
                · intro hel
                  rcases hel.2 with h4 | h4
                  · have := h4.1; rw [List.getElem?_eq_none (by omega)] at this; simp at this
                  · have := h4.1; rw [List.getElem?_eq_none (by omega)] at this; simp at this
                · exact hno j m h1 h3
  · have : c = p.length := by omega
    subst this
    rw [byteAt_end htl]
    simp only
    left
    rw [if_pos (by decide)]

/-- The state of the header loop at a line start up to the end of the content. -/
structure AtLine (p : List Byte) (it : Nat) : Prop where
  le : it ≤ p.length
  start : it = 0 ∨ p[it - 1]? = some LF
  none_before : ∀ j m, j < it → ¬ EmptyLineAt p j m

/-- Outcome of the loop from a line start. -/
theorem mimeLoop_spec (p tl : List Byte) {t : List Byte} (htl : tl = NUL :: t) :
    ∀ (fuel it : Nat) (acc : List (List Byte × List Byte)), AtLine p it → p.length + 1 ≤ fuel + it →
    mimeLoop p tl fuel it acc = .notMime ∨
    (∃ hs n, mimeLoop p tl fuel it acc = .ok hs n ∧ BodyAt p n) ∨
    (∃ fuel' acc', mimeLoop p tl fuel it acc = mimeLoop p tl (fuel' + 1) (p.length + 2) acc' ∧
      ∀ j m, ¬ EmptyLineAt p j m) := by
  intro fuel
  induction fuel with
  | zero => intro it acc h hf; have := h.le; omega
  | succ fuel ih =>
    intro it acc h hf
    have hle := h.le
    rw [mimeLoop]
    obtain ⟨b, hb⟩ : ∃ b, byteAt p tl it = some b := by
      rcases Nat.lt_or_ge it p.length with h1 | h1
      · exact ⟨_, by rw [byteAt_lt h1, List.getElem?_eq_getElem h1]⟩
      · have : it = p.length := by omega
        subst this; exact ⟨_, byteAt_end htl⟩
    have hin : b ≠ NUL → it < p.length ∧ p[it]? = some b := by
      intro hn
      rcases Nat.lt_or_ge it p.length with h1 | h1
      · rw [byteAt_lt h1] at hb; exact ⟨h1, hb⟩
      · have : it = p.length := by omega
        subst this
        rw [byteAt_end htl] at hb
        simp only [Option.some.injEq] at hb
        exact absurd hb.symm hn
    rw [hb]
    simp only
    split
    · rename_i hl
      right; left
      have ⟨h1, h2⟩ := hin (by rw [hl]; decide)
      rw [hl] at h2
      refine ⟨_, _, rfl, it, ⟨h.start, Or.inl ⟨h2, rfl⟩⟩, ?_⟩
      intro j m hj
      rcases Nat.lt_or_ge j it with h3 | h3
      · exact absurd hj (h.none_before j m h3)
      · exact h3
    · rename_i hnl
      split
      · rename_i hcr
        have ⟨h1, h2⟩ := hin (by rw [hcr.1]; decide)
        exfalso
        have hn := hcr.2
        rcases Nat.lt_or_ge (it + 1) p.length with h3 | h3
        · rw [byteAt_lt h3, List.getElem?_eq_getElem h3] at hn; simp at hn
        · have : it + 1 = p.length := by omega
          rw [this, byteAt_end htl] at hn; simp at hn
      · split
        · rename_i _ hcr
          have ⟨h1, h2⟩ := hin (by rw [hcr.1]; decide)
          rw [hcr.1] at h2
          have hn := hcr.2
          have h3 : p[it + 1]? = some LF := by
            rcases Nat.lt_or_ge (it + 1) p.length with h3 | h3
            · rw [byteAt_lt h3] at hn; exact hn
            · have : it + 1 = p.length := by omega
              rw [this, byteAt_end htl] at hn
              simp only [Option.some.injEq] at hn
              exact absurd hn (by decide)
          right; left
          refine ⟨_, _, rfl, it, ⟨h.start, Or.inr ⟨h2, h3, rfl⟩⟩, ?_⟩
          intro j m hj
          rcases Nat.lt_or_ge j it with h3 | h3
          · exact absurd hj (h.none_before j m h3)
          · exact h3
        · rename_i _ hncr
          -- the line is not empty
          have hnot : ∀ m, ¬ EmptyLineAt p it m := by
            intro m hel
            rcases hel.2 with h4 | h4
            · have h5 : it < p.length := by
                rcases Nat.lt_or_ge it p.length with h3 | h3
                · exact h3
                · rw [List.getElem?_eq_none h3] at h4; simp at h4
              rw [byteAt_lt h5, h4.1] at hb
              simp only [Option.some.injEq] at hb
              exact hnl hb.symm
            · have h5 : it < p.length := by
                rcases Nat.lt_or_ge it p.length with h3 | h3
                · exact h3
                · rw [List.getElem?_eq_none h3] at h4; simp at h4
              have h6 : it + 1 < p.length := by
                rcases Nat.lt_or_ge (it + 1) p.length with h3 | h3
                · exact h3
                · rw [List.getElem?_eq_none h3] at h4; simp at h4
              rw [byteAt_lt h5, h4.1] at hb
              simp only [Option.some.injEq] at hb
              exact hncr ⟨hb.symm, by rw [byteAt_lt h6, h4.2.1]⟩
          rcases readMimeHeader_spec p tl htl it hle with hr | ⟨name, content, next, hr, hn1, hn2, hn3⟩
          · rw [hr]; exact Or.inl rfl
          · rw [hr]
            simp only
            have hnb : ∀ j m, j < next → ¬ EmptyLineAt p j m := by
              intro j m hj
              rcases Nat.lt_trichotomy j it with h3 | h3 | h3
              · exact h.none_before j m h3
              · subst h3; exact hnot m
              · exact hn3 j m h3 hj
            rcases hn2 with ⟨a1, a2⟩ | a1
            · exact ih next _ ⟨a1, Or.inr a2, hnb⟩ (by omega)
            · right; right
              subst a1
              have hlt : it < p.length ∨ it = p.length := by omega
              obtain ⟨f, hf'⟩ : ∃ f, fuel = f + 1 := by
                rcases hlt with h3 | h3
                · exact ⟨fuel - 1, by omega⟩
                · -- at the end of the content there is no header to read
                  exfalso
                  subst h3
                  rw [byteAt_end htl] at hb
                  simp only [readMimeHeader] at hr
                  have hne : nameEnd p p.length p.length p.length = p.length := by
                    obtain ⟨n1, n2, _⟩ := nameEnd_spec p p.length p.length p.length (Nat.le_refl _)
                      (Nat.le_refl _) (by omega)
                    omega
                  rw [hne, byteAt_end htl] at hr
                  simp only at hr
                  rw [if_pos (by decide)] at hr
                  simp at hr
              refine ⟨f, _, by rw [hf'], ?_⟩
              intro j m
              rcases Nat.lt_or_ge j (p.length + 2) with h3 | h3
              · exact hnb j m h3
              · intro hel
                rcases hel.2 with h4 | h4
                · have := h4.1; rw [List.getElem?_eq_none (by omega)] at this; simp at this
                · have := h4.1; rw [List.getElem?_eq_none (by omega)] at this; simp at this

/-- Outcome of MIME processing for any content. -/
theorem mimeProcess_spec (p tl : List Byte) {t : List Byte} (htl : tl = NUL :: t) :
    mimeProcess tl p = .notMime ∨ (∃ hs n, mimeProcess tl p = .ok hs n ∧ BodyAt p n) ∨
    (∃ fuel' acc', mimeProcess tl p = mimeLoop p tl (fuel' + 1) (p.length + 2) acc' ∧
      ∀ j m, ¬ EmptyLineAt p j m) := by
  unfold mimeProcess
  split
  · rename_i hc
    right; left
    refine ⟨_, _, rfl, 0, ⟨Or.inl rfl, ?_⟩, fun j m _ => Nat.zero_le _⟩
    rcases hc with hc | hc
    · right
      rw [if_neg (by rw [hc.2.1]; decide)]
      exact ⟨hc.2.1, hc.2.2, rfl⟩
    · left
      rw [if_pos hc.2]
      exact ⟨hc.2, rfl⟩
  · split
    · exact Or.inl rfl
    · exact mimeLoop_spec p tl htl (p.length + 1) 0 [] ⟨Nat.zero_le _, Or.inl rfl, by intro j m h; omega⟩
        (by omega)

theorem mimeLoop_past_wire (p : List Byte) (fuel : Nat) (acc : List (List Byte × List Byte)) :
    mimeLoop p wireTail (fuel + 1) (p.length + 2) acc = .notMime := by
  have hb : byteAt p wireTail (p.length + 2) = some 68 := by
    unfold byteAt
    rw [List.getElem?_append_right (by omega)]
    rw [show p.length + 2 - p.length = 2 by omega]
    rfl
  have hp : p[p.length + 2]? = none := List.getElem?_eq_none (by omega)
  have hn : ∀ fuel, nameEnd p (p.length + 2) fuel (p.length + 2) = p.length + 2 := by
    intro fuel
    cases fuel with
    | zero => rfl
    | succ k => simp only [nameEnd, hp]
  have hs : p[p.length + 2]? ≠ some SP := by rw [hp]; simp
  have hr : readMimeHeader p wireTail (p.length + 2) = .fail := by
    unfold readMimeHeader
    simp only [hn, hb]
    rw [if_neg (by decide), if_neg (by omega), if_neg (by omega), skipSpaces_stay hs, hb]
    simp only
    rw [if_pos (by decide)]
  rw [mimeLoop, hb]
  simp only [hr]
  rw [if_neg (by decide), if_neg (by intro h; exact absurd h.1 (by decide)),
    if_neg (by intro h; exact absurd h.1 (by decide))]

theorem mimeLoop_past_built (p : List Byte) (fuel : Nat) (acc : List (List Byte × List Byte)) :
    mimeLoop p builtTail (fuel + 1) (p.length + 2) acc = .outside := by
  have hb : byteAt p builtTail (p.length + 2) = none := by
    unfold byteAt
    apply List.getElem?_eq_none
    simp [builtTail]
  rw [mimeLoop, hb]

end Verif.Proof
